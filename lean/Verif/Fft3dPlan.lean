import Verif.Fft3dCheck
import Verif.Fft3dData
import Verif.PropsRemap3d

/-!
# The object made by `FFT3d::setup`, explicitly
-/

noncomputable section

namespace FftMpi

variable {α : Type}

/-- `packflag` is one of the documented values. -/
def Settings.Valid (st : Settings) : Prop := st.packflag = 0 ∨ st.packflag = 1 ∨ st.packflag = 2

/-- A remap object for which nothing is known (never used). -/
def dummyObj : RemapObj α PackPlan3 := ⟨[], [], 0, 0, false, none, none, none, 0, 0⟩

/-- The remap that `newRemap` makes. -/
def mkRemap (c : Create) (inst : Nat) (collective : Bool) (ins outs : Nat → Box3) (permute : Int) :
    Remap3 α where
  obj := (remapSetup dim3 c.P c.me ins outs 2 permute c.st.packflag collective).getD dummyObj
  collective := collective
  inst := inst

theorem remapSetup3_some {P : Nat} {pk : Int} (hpk : pk = 0 ∨ pk = 1 ∨ pk = 2) {r : Nat} (hr : r < P)
    (coll : Bool) (ins outs : Nat → Box3) {permute : Int}
    (hp : permute = 0 ∨ permute = 1 ∨ permute = 2) :
    ∃ o : RemapObj α PackPlan3, remapSetup dim3 P r ins outs 2 permute pk coll = some o :=
  remapSetup_some (geom3 (P := P) (ins := ins) (outs := outs) (by decide) hp hpk) _ hr

theorem newRemap_eq {c : Create} (hst : c.st.Valid) (hme : c.me < c.P) (inst : Nat) (coll : Bool)
    (ins outs : Nat → Box3) {permute : Int} (hp : permute = 0 ∨ permute = 1 ∨ permute = 2) :
    (newRemap c inst coll ins outs permute : Option (Remap3 α)) =
      some (mkRemap c inst coll ins outs permute) := by
  obtain ⟨o, ho⟩ := remapSetup3_some (α := α) hst hme coll ins outs hp
  simp only [newRemap, mkRemap, ho, Option.map_some, Option.getD_some]

namespace Create

/-- One remap. -/
def single (r : Remap3 α) : RemapPair α := ⟨r, none⟩

/-- Two remaps. -/
def double (r x : Remap3 α) : RemapPair α := ⟨r, some x⟩

def prefastR (c : Create) : Remap3 α := mkRemap c 0 c.bp c.a.ins c.fast 0
def fastmidR (c : Create) : Remap3 α := mkRemap c 1 c.pp c.fast c.mid 1
def fastmidR1 (c : Create) : Remap3 α := mkRemap c 1 c.bp c.fast c.brick 0
def fastmidR2 (c : Create) : Remap3 α := mkRemap c 2 c.bp c.brick c.mid 1
def midslowR (c : Create) : Remap3 α :=
  mkRemap c 3 c.pp (fun r => jki (c.mid r)) (fun r => jki (c.slow r)) 1
def midslowR1 (c : Create) : Remap3 α :=
  mkRemap c 3 c.bp (fun r => jki (c.mid r)) (fun r => jki (c.brick r)) 0
def midslowR2 (c : Create) : Remap3 α :=
  mkRemap c 4 c.bp (fun r => jki (c.brick r)) (fun r => jki (c.slow r)) 1
def postslowR (c : Create) : Remap3 α :=
  mkRemap c 5 c.bp (fun r => kij (c.slow r)) (fun r => kij (c.a.outs r)) ((newpermute c.a.permute).getD 0)
def preslowR (c : Create) : Remap3 α :=
  if c.a.permute = 0 then mkRemap c 6 c.bp c.a.outs c.slow 2
  else if c.a.permute = 1 then
    mkRemap c 6 c.bp (fun r => jki (c.a.outs r)) (fun r => jki (c.slow r)) 1
  else mkRemap c 6 c.bp (fun r => kij (c.a.outs r)) (fun r => kij (c.slow r)) 0
def slowmidR (c : Create) : Remap3 α :=
  mkRemap c 7 c.pp (fun r => kij (c.slow r)) (fun r => kij (c.mid r)) 2
def slowmidR1 (c : Create) : Remap3 α :=
  mkRemap c 7 c.bp (fun r => kij (c.slow r)) (fun r => kij (c.brick r)) 0
def slowmidR2 (c : Create) : Remap3 α :=
  mkRemap c 8 c.bp (fun r => kij (c.brick r)) (fun r => kij (c.mid r)) 2
def midfastR (c : Create) : Remap3 α :=
  mkRemap c 9 c.pp (fun r => jki (c.mid r)) (fun r => jki (c.fast r)) 2
def midfastR1 (c : Create) : Remap3 α :=
  mkRemap c 9 c.bp (fun r => jki (c.mid r)) (fun r => jki (c.brick r)) 0
def midfastR2 (c : Create) : Remap3 α :=
  mkRemap c 10 c.bp (fun r => jki (c.brick r)) (fun r => jki (c.fast r)) 2
def postfastR (c : Create) : Remap3 α := mkRemap c 11 c.bp c.fast c.a.ins 0

def prefastO (c : Create) : Option (RemapPair α) :=
  if preflag c.P c.a then some (single c.prefastR) else none
def fastmidP (c : Create) : RemapPair α :=
  if c.st.exchange = 0 then single c.fastmidR else double c.fastmidR1 c.fastmidR2
def midslowP (c : Create) : RemapPair α :=
  if c.st.exchange = 0 then single c.midslowR else double c.midslowR1 c.midslowR2
def postslowO (c : Create) : Option (RemapPair α) :=
  if postflag c.P c.a c.g then some (single c.postslowR) else none
def preslowO (c : Create) : Option (RemapPair α) :=
  if postflag c.P c.a c.g then some (single c.preslowR) else none
def slowmidP (c : Create) : RemapPair α :=
  if c.st.exchange = 0 then single c.slowmidR else double c.slowmidR1 c.slowmidR2
def midfastP (c : Create) : RemapPair α :=
  if c.st.exchange = 0 then single c.midfastR else double c.midfastR1 c.midfastR2
def postfastO (c : Create) : Option (RemapPair α) :=
  if preflag c.P c.a then some (single c.postfastR) else none

/-- The forward remaps, all of which are counted in the buffer sizes. -/
def fwdSizes (c : Create) : List (Remap3 α) :=
  (if preflag c.P c.a then [c.prefastR] else []) ++
  (if c.st.exchange = 0 then [c.fastmidR, c.midslowR]
    else [c.fastmidR1, c.fastmidR2, c.midslowR1, c.midslowR2]) ++
  (if postflag c.P c.a c.g then [c.postslowR] else [])

/-- The inverse remaps that are counted in the buffer sizes (all but the second one of
`remap_midfast`). -/
def invSizes (c : Create) : List (Remap3 α) :=
  (if postflag c.P c.a c.g then [c.preslowR] else []) ++
  (if c.st.exchange = 0 then [c.slowmidR, c.midfastR] else [c.slowmidR1, c.slowmidR2, c.midfastR1]) ++
  (if preflag c.P c.a then [c.postfastR] else [])

end Create

open Create

theorem forwardCreate_eq {c : Create} (hst : c.st.Valid) (hme : c.me < c.P)
    (hp : c.a.permute = 0 ∨ c.a.permute = 1 ∨ c.a.permute = 2) (s : Int × Int) :
    (forwardCreate c s : Option (Forward α × (Int × Int))) =
      some (⟨c.prefastO, c.fastmidP, c.midslowP, c.postslowO⟩, (c.fwdSizes (α := α)).foldl bump s) := by
  obtain ⟨np, hnp, hnp'⟩ : ∃ np, newpermute c.a.permute = some np ∧ (np = 0 ∨ np = 1 ∨ np = 2) := by
    rcases hp with h | h | h <;> rw [h] <;> simp [newpermute]
  unfold forwardCreate
  have e0 : ∀ i b x y, (newRemap c i b x y 0 : Option (Remap3 α)) = some (mkRemap c i b x y 0) :=
    fun i b x y => newRemap_eq hst hme i b x y (by decide)
  have e1 : ∀ i b x y, (newRemap c i b x y 1 : Option (Remap3 α)) = some (mkRemap c i b x y 1) :=
    fun i b x y => newRemap_eq hst hme i b x y (by decide)
  have e2 : ∀ i b x y, (newRemap c i b x y np : Option (Remap3 α)) = some (mkRemap c i b x y np) :=
    fun i b x y => newRemap_eq hst hme i b x y hnp'
  by_cases h1 : preflag c.P c.a = true <;> by_cases h2 : c.st.exchange = 0 <;>
    by_cases h3 : postflag c.P c.a c.g = true <;>
    simp [h1, h2, h3, e0, e1, e2, hnp, prefastO, fastmidP, midslowP, postslowO, fwdSizes, single, double,
      prefastR, fastmidR, fastmidR1, fastmidR2, midslowR, midslowR1, midslowR2, postslowR]

theorem inverseCreate_eq {c : Create} (hst : c.st.Valid) (hme : c.me < c.P)
    (hp : c.a.permute = 0 ∨ c.a.permute = 1 ∨ c.a.permute = 2) (s : Int × Int) :
    (inverseCreate c s : Option (Inverse α × (Int × Int))) =
      some (⟨c.preslowO, c.slowmidP, c.midfastP, c.postfastO⟩, (c.invSizes (α := α)).foldl bump s) := by
  unfold inverseCreate
  have e0 : ∀ i b x y, (newRemap c i b x y 0 : Option (Remap3 α)) = some (mkRemap c i b x y 0) :=
    fun i b x y => newRemap_eq hst hme i b x y (by decide)
  have e1 : ∀ i b x y, (newRemap c i b x y 1 : Option (Remap3 α)) = some (mkRemap c i b x y 1) :=
    fun i b x y => newRemap_eq hst hme i b x y (by decide)
  have e2 : ∀ i b x y, (newRemap c i b x y 2 : Option (Remap3 α)) = some (mkRemap c i b x y 2) :=
    fun i b x y => newRemap_eq hst hme i b x y (by decide)
  have e3 : (newPreslow c : Option (Remap3 α)) = some c.preslowR := by
    unfold newPreslow preslowR
    rcases hp with h | h | h <;> simp [h, e0, e1, e2]
  by_cases h1 : preflag c.P c.a = true <;> by_cases h2 : c.st.exchange = 0 <;>
    by_cases h3 : postflag c.P c.a c.g = true <;>
    simp [h1, h2, h3, e0, e1, e2, e3, preslowO, slowmidP, midfastP, postfastO, invSizes, single, double,
      slowmidR, slowmidR1, slowmidR2, midfastR, midfastR1, midfastR2, postfastR]

/-- The plans of 1d FFTs. -/
theorem setupFfts_ok {c : Create} (h1 : 2 ≤ c.a.nfast ∧ c.a.nfast < 2 ^ 31)
    (h2 : 2 ≤ c.a.nmid ∧ c.a.nmid < 2 ^ 31) (h3 : 2 ≤ c.a.nslow ∧ c.a.nslow < 2 ^ 31) :
    ∃ f m s, setupFfts c = some (f, m, s) ∧
      (f.length = c.a.nfast ∧ f.total = (c.fast c.me).jsize * (c.fast c.me).ksize * c.a.nfast ∧
        kissAlloc c.a.nfast.toNat false = some f.planForward ∧
        kissAlloc c.a.nfast.toNat true = some f.planBackward) ∧
      (m.length = c.a.nmid ∧ m.total = (c.mid c.me).isize * (c.mid c.me).ksize * c.a.nmid ∧
        kissAlloc c.a.nmid.toNat false = some m.planForward ∧
        kissAlloc c.a.nmid.toNat true = some m.planBackward) ∧
      (s.length = c.a.nslow ∧ s.total = (c.slow c.me).isize * (c.slow c.me).jsize * c.a.nslow ∧
        kissAlloc c.a.nslow.toNat false = some s.planForward ∧
        kissAlloc c.a.nslow.toNat true = some s.planBackward) := by
  obtain ⟨ff, hff, _⟩ := kissAlloc_ok (n := c.a.nfast.toNat) (by omega) (by omega) false
  obtain ⟨fb, hfb, _⟩ := kissAlloc_ok (n := c.a.nfast.toNat) (by omega) (by omega) true
  obtain ⟨mf, hmf, _⟩ := kissAlloc_ok (n := c.a.nmid.toNat) (by omega) (by omega) false
  obtain ⟨mb, hmb, _⟩ := kissAlloc_ok (n := c.a.nmid.toNat) (by omega) (by omega) true
  obtain ⟨sf, hsf, _⟩ := kissAlloc_ok (n := c.a.nslow.toNat) (by omega) (by omega) false
  obtain ⟨sb, hsb, _⟩ := kissAlloc_ok (n := c.a.nslow.toNat) (by omega) (by omega) true
  unfold setupFfts
  by_cases e1 : c.a.nmid = c.a.nfast
  · have hmf' : kissAlloc c.a.nmid.toNat false = some ff := by rw [e1]; exact hff
    have hmb' : kissAlloc c.a.nmid.toNat true = some fb := by rw [e1]; exact hfb
    by_cases e2 : c.a.nslow = c.a.nfast
    · have hsf' : kissAlloc c.a.nslow.toNat false = some ff := by rw [e2]; exact hff
      have hsb' : kissAlloc c.a.nslow.toNat true = some fb := by rw [e2]; exact hfb
      simp only [Option.bind_eq_bind, hff, hfb, Option.bind_some, if_pos e1, if_pos e2]
      exact ⟨_, _, _, rfl, ⟨rfl, rfl, rfl, rfl⟩, ⟨rfl, rfl, hmf', hmb'⟩, ⟨rfl, rfl, hsf', hsb'⟩⟩
    · have e3 : ¬ c.a.nslow = c.a.nmid := by omega
      simp only [Option.bind_eq_bind, hff, hfb, hsf, hsb, Option.bind_some, if_pos e1, if_neg e2,
        if_neg e3]
      exact ⟨_, _, _, rfl, ⟨rfl, rfl, rfl, rfl⟩, ⟨rfl, rfl, hmf', hmb'⟩, ⟨rfl, rfl, rfl, rfl⟩⟩
  · by_cases e2 : c.a.nslow = c.a.nfast
    · have hsf' : kissAlloc c.a.nslow.toNat false = some ff := by rw [e2]; exact hff
      have hsb' : kissAlloc c.a.nslow.toNat true = some fb := by rw [e2]; exact hfb
      simp only [Option.bind_eq_bind, hff, hfb, hmf, hmb, Option.bind_some, if_neg e1, if_pos e2]
      exact ⟨_, _, _, rfl, ⟨rfl, rfl, rfl, rfl⟩, ⟨rfl, rfl, rfl, rfl⟩, ⟨rfl, rfl, hsf', hsb'⟩⟩
    · by_cases e3 : c.a.nslow = c.a.nmid
      · have hsf' : kissAlloc c.a.nslow.toNat false = some mf := by rw [e3]; exact hmf
        have hsb' : kissAlloc c.a.nslow.toNat true = some mb := by rw [e3]; exact hmb
        simp only [Option.bind_eq_bind, hff, hfb, hmf, hmb, Option.bind_some, if_neg e1, if_neg e2,
          if_pos e3]
        exact ⟨_, _, _, rfl, ⟨rfl, rfl, rfl, rfl⟩, ⟨rfl, rfl, rfl, rfl⟩, ⟨rfl, rfl, hsf', hsb'⟩⟩
      · simp only [Option.bind_eq_bind, hff, hfb, hmf, hmb, hsf, hsb, Option.bind_some, if_neg e1,
          if_neg e2, if_neg e3]
        exact ⟨_, _, _, rfl, ⟨rfl, rfl, rfl, rfl⟩, ⟨rfl, rfl, rfl, rfl⟩, ⟨rfl, rfl, rfl, rfl⟩⟩

/-- The object made by `setup` on rank `c.me`. -/
theorem setupMain_eq' {c : Create} (hst : c.st.Valid) (hme : c.me < c.P)
    (hn1 : 2 ≤ c.a.nfast ∧ c.a.nfast < 2 ^ 31) (hn2 : 2 ≤ c.a.nmid ∧ c.a.nmid < 2 ^ 31)
    (hn3 : 2 ≤ c.a.nslow ∧ c.a.nslow < 2 ^ 31)
    (hp : c.a.permute = 0 ∨ c.a.permute = 1 ∨ c.a.permute = 2) :
    ∃ f m s, setupFfts c = some (f, m, s) ∧
      (setupMain c : Option (Fft3 α)) = some
        { same := inoutSame c.P c.a
          prefast := c.prefastO, fastmid := some c.fastmidP, midslow := some c.midslowP,
          postslow := c.postslowO
          preslow := if inoutSame c.P c.a then none else c.preslowO
          slowmid := if inoutSame c.P c.a then none else some c.slowmidP
          midfast := if inoutSame c.P c.a then none else some c.midfastP
          postfast := if inoutSame c.P c.a then none else c.postfastO
          insize := boxSize (c.a.ins c.me), outsize := boxSize (c.a.outs c.me)
          fftsize := fftSize c
          sendsize := (((c.fwdSizes (α := α)) ++ if inoutSame c.P c.a then [] else c.invSizes).foldl
            bump (0, 0)).1
          recvsize := (((c.fwdSizes (α := α)) ++ if inoutSame c.P c.a then [] else c.invSizes).foldl
            bump (0, 0)).2
          fftFast := f, fftMid := m, fftSlow := s
          norm := 1 / (c.a.nfast * c.a.nmid * c.a.nslow : ℝ)
          normnum := boxSize (c.a.outs c.me) } := by
  obtain ⟨f, m, s, h1, _⟩ := setupFfts_ok hn1 hn2 hn3
  refine ⟨f, m, s, h1, ?_⟩
  unfold setupMain
  rw [forwardCreate_eq hst hme hp]
  by_cases hs : inoutSame c.P c.a = true
  · simp [hs, h1]
  · rw [Bool.not_eq_true] at hs
    simp only [Option.bind_eq_bind, Option.bind_some, hs, Bool.false_eq_true, if_false,
      inverseCreate_eq hst hme hp, Option.map_some, h1, List.foldl_append]

theorem setupMain_eq {c : Create} (hst : c.st.Valid) (hme : c.me < c.P) (hv : c.a.Valid c.P) :
    ∃ f m s, setupFfts c = some (f, m, s) ∧
      (setupMain c : Option (Fft3 α)) = some
        { same := inoutSame c.P c.a
          prefast := c.prefastO, fastmid := some c.fastmidP, midslow := some c.midslowP,
          postslow := c.postslowO
          preslow := if inoutSame c.P c.a then none else c.preslowO
          slowmid := if inoutSame c.P c.a then none else some c.slowmidP
          midfast := if inoutSame c.P c.a then none else some c.midfastP
          postfast := if inoutSame c.P c.a then none else c.postfastO
          insize := boxSize (c.a.ins c.me), outsize := boxSize (c.a.outs c.me)
          fftsize := fftSize c
          sendsize := (((c.fwdSizes (α := α)) ++ if inoutSame c.P c.a then [] else c.invSizes).foldl
            bump (0, 0)).1
          recvsize := (((c.fwdSizes (α := α)) ++ if inoutSame c.P c.a then [] else c.invSizes).foldl
            bump (0, 0)).2
          fftFast := f, fftMid := m, fftSlow := s
          norm := 1 / (c.a.nfast * c.a.nmid * c.a.nslow : ℝ)
          normnum := boxSize (c.a.outs c.me) } :=
  setupMain_eq' hst hme hv.fast hv.mid hv.slow hv.permute

/-- Buffer sizes are monotone. -/
theorem foldl_bump_le (l : List (Remap3 α)) (s : Int × Int) :
    s.1 ≤ (l.foldl bump s).1 ∧ s.2 ≤ (l.foldl bump s).2 ∧
      ∀ r ∈ l, r.obj.sendsize ≤ (l.foldl bump s).1 ∧ r.obj.recvsize ≤ (l.foldl bump s).2 := by
  induction l generalizing s with
  | nil => exact ⟨le_rfl, le_rfl, by simp⟩
  | cons x l ih =>
    obtain ⟨h1, h2, h3⟩ := ih (bump s x)
    simp only [List.foldl_cons]
    unfold bump at h1 h2
    simp only at h1 h2
    refine ⟨le_trans (le_max_left _ _) h1, le_trans (le_max_left _ _) h2, ?_⟩
    intro r hr
    rcases List.mem_cons.mp hr with rfl | hr
    · exact ⟨le_trans (le_max_right _ _) h1, le_trans (le_max_right _ _) h2⟩
    · exact h3 r hr

end FftMpi
