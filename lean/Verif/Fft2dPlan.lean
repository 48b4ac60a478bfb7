import Verif.Fft2dLayout
import Verif.Fft2d
import Verif.Fft3dRun
import Verif.PropsRemap2d

/-!
# The object made by `FFT2d::setup`, explicitly
-/

noncomputable section

namespace FftMpi

variable {α : Type}

/-- `packflag` is one of the documented values, and not 2 in single precision builds (where
`pack_2d_memcpy` copies too much, see `PropsPack2d.lean`). -/
def Settings.Valid2 (w : Int) (st : Settings) : Prop := FlagOk2 w st.packflag

/-- A remap object for which nothing is known (never used). -/
def dummyObj2 : RemapObj α PackPlan2 := ⟨[], [], 0, 0, false, none, none, none, 0, 0⟩

/-- The remap that `newRemap2` makes. -/
def mkRemap2 (c : Create2) (inst : Nat) (collective : Bool) (ins outs : Nat → Box2) (permute : Int) :
    Remap2 α where
  obj := (remapSetup (dim2 c.w) c.P c.me ins outs 2 permute c.st.packflag collective).getD dummyObj2
  collective := collective
  inst := inst

theorem remapSetup2_some {P : Nat} {w pk : Int} (hpk : FlagOk2 w pk) {r : Nat} (hr : r < P)
    (coll : Bool) (ins outs : Nat → Box2) {permute : Int} (hp : permute = 0 ∨ permute = 1) :
    ∃ o : RemapObj α PackPlan2, remapSetup (dim2 w) P r ins outs 2 permute pk coll = some o :=
  remapSetup_some (geom2 (P := P) (ins := ins) (outs := outs) (by decide) hp hpk) _ hr

theorem newRemap2_eq {c : Create2} (hst : c.st.Valid2 c.w) (hme : c.me < c.P) (inst : Nat) (coll : Bool)
    (ins outs : Nat → Box2) {permute : Int} (hp : permute = 0 ∨ permute = 1) :
    (newRemap2 c inst coll ins outs permute : Option (Remap2 α)) =
      some (mkRemap2 c inst coll ins outs permute) := by
  obtain ⟨o, ho⟩ := remapSetup2_some (α := α) hst hme coll ins outs hp
  simp only [newRemap2, mkRemap2, ho, Option.map_some, Option.getD_some]

namespace Create2

/-- One remap. -/
def single (r : Remap2 α) : RemapPair2 α := ⟨r, none⟩

/-- Two remaps. -/
def double (r x : Remap2 α) : RemapPair2 α := ⟨r, some x⟩

def prefastR (c : Create2) : Remap2 α := mkRemap2 c 0 c.bp c.a.ins c.fast 0
def fastslowR (c : Create2) : Remap2 α := mkRemap2 c 1 c.pp c.fast c.slow 1
def fastslowR1 (c : Create2) : Remap2 α := mkRemap2 c 1 c.bp c.fast c.brick 0
def fastslowR2 (c : Create2) : Remap2 α := mkRemap2 c 2 c.bp c.brick c.slow 1
def postslowR (c : Create2) : Remap2 α :=
  mkRemap2 c 3 c.bp (fun r => ji (c.slow r)) (fun r => ji (c.a.outs r)) ((newpermute2 c.a.permute).getD 0)
def preslowR (c : Create2) : Remap2 α :=
  if c.a.permute = 0 then mkRemap2 c 4 c.bp c.a.outs c.slow 1
  else mkRemap2 c 4 c.bp (fun r => ji (c.a.outs r)) (fun r => ji (c.slow r)) 0
def slowfastR (c : Create2) : Remap2 α :=
  mkRemap2 c 5 c.pp (fun r => ji (c.slow r)) (fun r => ji (c.fast r)) 1
def slowfastR1 (c : Create2) : Remap2 α :=
  mkRemap2 c 5 c.bp (fun r => ji (c.slow r)) (fun r => ji (c.brick r)) 0
def slowfastR2 (c : Create2) : Remap2 α :=
  mkRemap2 c 6 c.bp (fun r => ji (c.brick r)) (fun r => ji (c.fast r)) 1
def postfastR (c : Create2) : Remap2 α := mkRemap2 c 7 c.bp c.fast c.a.ins 0

def prefastO (c : Create2) : Option (RemapPair2 α) :=
  if preflag2 c.P c.a then some (single c.prefastR) else none
def fastslowP (c : Create2) : RemapPair2 α :=
  if c.st.exchange = 0 then single c.fastslowR else double c.fastslowR1 c.fastslowR2
def postslowO (c : Create2) : Option (RemapPair2 α) :=
  if postflag2 c.P c.a then some (single c.postslowR) else none
def preslowO (c : Create2) : Option (RemapPair2 α) :=
  if postflag2 c.P c.a then some (single c.preslowR) else none
def slowfastP (c : Create2) : RemapPair2 α :=
  if c.st.exchange = 0 then single c.slowfastR else double c.slowfastR1 c.slowfastR2
def postfastO (c : Create2) : Option (RemapPair2 α) :=
  if preflag2 c.P c.a then some (single c.postfastR) else none

/-- The forward remaps. -/
def fwdSizes (c : Create2) : List (Remap2 α) :=
  (if preflag2 c.P c.a then [c.prefastR] else []) ++
  (if c.st.exchange = 0 then [c.fastslowR] else [c.fastslowR1, c.fastslowR2]) ++
  (if postflag2 c.P c.a then [c.postslowR] else [])

/-- The inverse remaps. -/
def invSizes (c : Create2) : List (Remap2 α) :=
  (if postflag2 c.P c.a then [c.preslowR] else []) ++
  (if c.st.exchange = 0 then [c.slowfastR] else [c.slowfastR1, c.slowfastR2]) ++
  (if preflag2 c.P c.a then [c.postfastR] else [])

end Create2

open Create2

theorem forwardCreate2_eq {c : Create2} (hst : c.st.Valid2 c.w) (hme : c.me < c.P)
    (hp : c.a.permute = 0 ∨ c.a.permute = 1) (s : Int × Int) :
    (forwardCreate2 c s : Option (Forward2 α × (Int × Int))) =
      some (⟨c.prefastO, c.fastslowP, c.postslowO⟩, (c.fwdSizes (α := α)).foldl bump2 s) := by
  obtain ⟨np, hnp, hnp'⟩ : ∃ np, newpermute2 c.a.permute = some np ∧ (np = 0 ∨ np = 1) := by
    rcases hp with h | h <;> rw [h] <;> simp [newpermute2]
  unfold forwardCreate2
  have e0 : ∀ i b x y, (newRemap2 c i b x y 0 : Option (Remap2 α)) = some (mkRemap2 c i b x y 0) :=
    fun i b x y => newRemap2_eq hst hme i b x y (by decide)
  have e1 : ∀ i b x y, (newRemap2 c i b x y 1 : Option (Remap2 α)) = some (mkRemap2 c i b x y 1) :=
    fun i b x y => newRemap2_eq hst hme i b x y (by decide)
  have e2 : ∀ i b x y, (newRemap2 c i b x y np : Option (Remap2 α)) = some (mkRemap2 c i b x y np) :=
    fun i b x y => newRemap2_eq hst hme i b x y hnp'
  by_cases h1 : preflag2 c.P c.a = true <;> by_cases h2 : c.st.exchange = 0 <;>
    by_cases h3 : postflag2 c.P c.a = true <;>
    simp [h1, h2, h3, e0, e1, e2, hnp, prefastO, fastslowP, postslowO, fwdSizes, single, double,
      prefastR, fastslowR, fastslowR1, fastslowR2, postslowR]

theorem inverseCreate2_eq {c : Create2} (hst : c.st.Valid2 c.w) (hme : c.me < c.P)
    (hp : c.a.permute = 0 ∨ c.a.permute = 1) (s : Int × Int) :
    (inverseCreate2 c s : Option (Inverse2 α × (Int × Int))) =
      some (⟨c.preslowO, c.slowfastP, c.postfastO⟩, (c.invSizes (α := α)).foldl bump2 s) := by
  unfold inverseCreate2
  have e0 : ∀ i b x y, (newRemap2 c i b x y 0 : Option (Remap2 α)) = some (mkRemap2 c i b x y 0) :=
    fun i b x y => newRemap2_eq hst hme i b x y (by decide)
  have e1 : ∀ i b x y, (newRemap2 c i b x y 1 : Option (Remap2 α)) = some (mkRemap2 c i b x y 1) :=
    fun i b x y => newRemap2_eq hst hme i b x y (by decide)
  have e3 : (newPreslow2 c : Option (Remap2 α)) = some c.preslowR := by
    unfold newPreslow2 preslowR
    rcases hp with h | h <;> simp [h, e0, e1]
  by_cases h1 : preflag2 c.P c.a = true <;> by_cases h2 : c.st.exchange = 0 <;>
    by_cases h3 : postflag2 c.P c.a = true <;>
    simp [h1, h2, h3, e0, e1, e3, preslowO, slowfastP, postfastO, invSizes, single, double,
      slowfastR, slowfastR1, slowfastR2, postfastR]

/-- The plans of 1d FFTs. -/
theorem setupFfts2_ok {c : Create2} (h1 : 2 ≤ c.a.nfast ∧ c.a.nfast < 2 ^ 31)
    (h3 : 2 ≤ c.a.nslow ∧ c.a.nslow < 2 ^ 31) :
    ∃ f s, setupFfts2 c = some (f, s) ∧
      (f.length = c.a.nfast ∧ f.total = (c.fast c.me).jsize * c.a.nfast ∧
        kissAlloc c.a.nfast.toNat false = some f.planForward ∧
        kissAlloc c.a.nfast.toNat true = some f.planBackward) ∧
      (s.length = c.a.nslow ∧ s.total = (c.slow c.me).isize * c.a.nslow ∧
        kissAlloc c.a.nslow.toNat false = some s.planForward ∧
        kissAlloc c.a.nslow.toNat true = some s.planBackward) := by
  obtain ⟨ff, hff, _⟩ := kissAlloc_ok (n := c.a.nfast.toNat) (by omega) (by omega) false
  obtain ⟨fb, hfb, _⟩ := kissAlloc_ok (n := c.a.nfast.toNat) (by omega) (by omega) true
  obtain ⟨sf, hsf, _⟩ := kissAlloc_ok (n := c.a.nslow.toNat) (by omega) (by omega) false
  obtain ⟨sb, hsb, _⟩ := kissAlloc_ok (n := c.a.nslow.toNat) (by omega) (by omega) true
  unfold setupFfts2
  by_cases e2 : c.a.nslow = c.a.nfast
  · have hsf' : kissAlloc c.a.nslow.toNat false = some ff := by rw [e2]; exact hff
    have hsb' : kissAlloc c.a.nslow.toNat true = some fb := by rw [e2]; exact hfb
    simp only [Option.bind_eq_bind, hff, hfb, Option.bind_some, if_pos e2]
    exact ⟨_, _, rfl, ⟨rfl, rfl, rfl, rfl⟩, ⟨rfl, rfl, hsf', hsb'⟩⟩
  · simp only [Option.bind_eq_bind, hff, hfb, hsf, hsb, Option.bind_some, if_neg e2]
    exact ⟨_, _, rfl, ⟨rfl, rfl, rfl, rfl⟩, ⟨rfl, rfl, rfl, rfl⟩⟩

/-- The object made by `setup` on rank `c.me`. -/
theorem setupMain2_eq {c : Create2} (hst : c.st.Valid2 c.w) (hme : c.me < c.P)
    (hn1 : 2 ≤ c.a.nfast ∧ c.a.nfast < 2 ^ 31) (hn3 : 2 ≤ c.a.nslow ∧ c.a.nslow < 2 ^ 31)
    (hp : c.a.permute = 0 ∨ c.a.permute = 1) :
    ∃ f s, setupFfts2 c = some (f, s) ∧
      (setupMain2 c : Option (Fft2 α)) = some
        { same := inoutSame2 c.P c.a
          prefast := c.prefastO, fastslow := some c.fastslowP, postslow := c.postslowO
          preslow := if inoutSame2 c.P c.a then none else c.preslowO
          slowfast := if inoutSame2 c.P c.a then none else some c.slowfastP
          postfast := if inoutSame2 c.P c.a then none else c.postfastO
          insize := boxSize2 (c.a.ins c.me), outsize := boxSize2 (c.a.outs c.me)
          fftsize := fftSize2 c
          sendsize := (((c.fwdSizes (α := α)) ++ if inoutSame2 c.P c.a then [] else c.invSizes).foldl
            bump2 (0, 0)).1
          recvsize := (((c.fwdSizes (α := α)) ++ if inoutSame2 c.P c.a then [] else c.invSizes).foldl
            bump2 (0, 0)).2
          fftFast := f, fftSlow := s
          norm := 1 / (c.a.nfast * c.a.nslow : ℝ)
          normnum := boxSize2 (c.a.outs c.me) } := by
  obtain ⟨f, s, h1, _⟩ := setupFfts2_ok hn1 hn3
  refine ⟨f, s, h1, ?_⟩
  unfold setupMain2
  rw [forwardCreate2_eq hst hme hp]
  by_cases hs : inoutSame2 c.P c.a = true
  · simp [hs, h1]
  · rw [Bool.not_eq_true] at hs
    simp only [Option.bind_eq_bind, Option.bind_some, hs, Bool.false_eq_true, if_false,
      inverseCreate2_eq hst hme hp, Option.map_some, h1, List.foldl_append]

/-- Buffer sizes are monotone. -/
theorem foldl_bump2_le (l : List (Remap2 α)) (s : Int × Int) :
    s.1 ≤ (l.foldl bump2 s).1 ∧ s.2 ≤ (l.foldl bump2 s).2 ∧
      ∀ r ∈ l, r.obj.sendsize ≤ (l.foldl bump2 s).1 ∧ r.obj.recvsize ≤ (l.foldl bump2 s).2 := by
  induction l generalizing s with
  | nil => exact ⟨le_rfl, le_rfl, by simp⟩
  | cons x l ih =>
    obtain ⟨h1, h2, h3⟩ := ih (bump2 s x)
    simp only [List.foldl_cons]
    unfold bump2 at h1 h2
    simp only at h1 h2
    refine ⟨le_trans (le_max_left _ _) h1, le_trans (le_max_left _ _) h2, ?_⟩
    intro r hr
    rcases List.mem_cons.mp hr with rfl | hr
    · exact ⟨le_trans (le_max_right _ _) h1, le_trans (le_max_right _ _) h2⟩
    · exact h3 r hr

end FftMpi
