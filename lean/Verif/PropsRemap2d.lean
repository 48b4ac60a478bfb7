import Verif.Remap2dMain
import Verif.RemapFacts

/-!
# Properties C39 and C40: the 2d remap

Same statements as for the 3d remap (`PropsRemap3d.lean`).
-/

namespace FftMpi

open Relation

variable {α : Type}

/-! ## A running example: 2 ranks, 2 x 2 grid, rows to columns -/

/-- Example call. -/
def demo2 (permute packflag : Int) (collective : Bool) (ai ao : Nat) : Call2 where
  w := 1
  ins r := ⟨0, 1, r, r⟩
  outs r := ⟨r, r, 0, 1⟩
  nqty := 2
  permute := permute
  packflag := packflag
  collective := collective
  inst := 0
  ai := ai
  ao := ao

/-- memcpy packing in double precision. -/
theorem flag2 : FlagOk2 1 2 := Or.inr (Or.inr ⟨rfl, rfl⟩)

/-- Example memory, arrays and buffers of exactly 4 elements. -/
def demo2Mem (r : Nat) : LMem Int where
  ub n := Mem.ofFn 4 fun x => 1000 * r + 100 * n + x
  sb := Mem.ofFn 4 fun _ => 0
  rb := Mem.ofFn 4 fun _ => 0

theorem demo2_tiles_in (p f : Int) (c : Bool) (ai ao : Nat) :
    Tiles2 2 (demo2 p f c ai ao).ins 2 2 where
  inside := by intro a ha i j h; simp only [demo2, Box2.Has] at h; omega
  owner := by
    intro i j hi hj
    exact ⟨j.toNat, by omega, by simp only [demo2, Box2.Has]; omega⟩
  disjoint := by intro a _ b _ i j h1 h2; simp only [demo2, Box2.Has] at h1 h2; omega

theorem demo2_tiles_out (p f : Int) (c : Bool) (ai ao : Nat) :
    Tiles2 2 (demo2 p f c ai ao).outs 2 2 where
  inside := by intro a ha i j h; simp only [demo2, Box2.Has] at h; omega
  owner := by
    intro i j hi hj
    exact ⟨i.toNat, by omega, by simp only [demo2, Box2.Has]; omega⟩
  disjoint := by intro a _ b _ i j h1 h2; simp only [demo2, Box2.Has] at h1 h2; omega

theorem demo2_valid (p f : Int) (c : Bool) (ai ao : Nat) (hp : p = 0 ∨ p = 1)
    (hf : FlagOk2 1 f) : (demo2 p f c ai ao).Valid 2 where
  disjoint := (demo2_tiles_in p f c ai ao).disjoint
  nqty := by show (1 : Int) ≤ 2; decide
  permute := hp
  packflag := hf

/-- Setup succeeds. -/
theorem setup2_exists (P : Nat) (c : Call2) (hq : 1 ≤ c.nqty)
    (hp : c.permute = 0 ∨ c.permute = 1) (hf : FlagOk2 c.w c.packflag) :
    ∃ obj : Nat → RemapObj α PackPlan2, c.Setup P obj := by
  have h : ∀ r < P, ∃ o : RemapObj α PackPlan2,
      remapSetup (dim2 c.w) P r c.ins c.outs c.nqty c.permute c.packflag c.collective = some o :=
    fun r hr => remapSetup_some (geom2 (P := P) (ins := c.ins) (outs := c.outs) hq hp hf) _ hr
  have : Nonempty (RemapObj α PackPlan2) :=
    ⟨⟨[], [], 0, 0, false, none, none, none, 0, 0⟩⟩
  choose! obj hobj using h
  exact ⟨obj, hobj⟩

theorem demo2_fits (p : Int) (c : Bool) (ai ao : Nat) (hp : p = 0 ∨ p = 1)
    {obj : Nat → RemapObj Int PackPlan2}
    (hs : (demo2 p 2 c ai ao).Setup 2 obj) : (demo2 p 2 c ai ao).Fits 2 obj demo2Mem := by
  have hsz : ∀ r < 2, (obj r).sendsize ≤ 4 ∧ (obj r).recvsize ≤ 4 := by
    intro r hr
    have h := hs r hr
    have h' : ∀ r < 2, ((remapSetup (α := Int) (dim2 1) 2 r (fun r => ⟨0, 1, r, r⟩)
        (fun r => ⟨r, r, 0, 1⟩) 2 p 2 c).map fun o =>
          decide (o.sendsize ≤ 4 ∧ o.recvsize ≤ 4)) = some true := by
      rcases hp with rfl | rfl <;> cases c <;> decide
    have h2 := h' r hr
    rw [show (demo2 p 2 c ai ao).nqty = 2 from rfl, show (demo2 p 2 c ai ao).permute = p from rfl,
      show (demo2 p 2 c ai ao).packflag = 2 from rfl, show (demo2 p 2 c ai ao).w = 1 from rfl,
      show (demo2 p 2 c ai ao).collective = c from rfl,
      show (demo2 p 2 c ai ao).ins = fun r => ⟨0, 1, r, r⟩ from rfl,
      show (demo2 p 2 c ai ao).outs = fun r => ⟨r, r, 0, 1⟩ from rfl] at h
    rw [h] at h2
    simpa using h2
  have hacc : ∀ (f : Int → Int) (n : Int), n ≤ 4 → accessible (Mem.ofFn 4 f) 0 n := by
    intro f n hn a h1 h2
    simp only [Mem.ofFn]
    rw [if_pos (by omega)]; rfl
  constructor
  · intro r _
    apply hacc
    simp only [demo2, Box2.count, Box2.isize, Box2.jsize]
    simp
  · intro r _
    apply hacc
    simp only [demo2, Box2.count, Box2.isize, Box2.jsize]
    simp
  · intro r hr; exact hacc _ _ (hsz r hr).1
  · intro r hr; exact hacc _ _ (hsz r hr).2

/-! ## C39, as C01 -/

/-- **C39 (as C01).**  If the input boxes and the output boxes of all ranks tile the same grid, then every
execution of the remap on all ranks ends, and in the end every rank holds, for every point of its
output box, the value that the owner of the point had; storage order according to `permute`. -/
theorem C39_remap2d_delivers (e : Bool) {P : Nat} (c : Call2) (nfast nslow : Int)
    (hin : Tiles2 P c.ins nfast nslow) (hout : Tiles2 P c.outs nfast nslow)
    (hq : 1 ≤ c.nqty) (hp : c.permute = 0 ∨ c.permute = 1)
    (hf : FlagOk2 c.w c.packflag)
    (obj : Nat → RemapObj α PackPlan2) (hs : c.Setup P obj)
    (m : Nat → LMem α) (hm : c.Fits P obj m) :
    ∃ m', Terminates e P (c.prog obj) m m' ∧
      ∀ b < P, ∀ i j q, (c.outs b).Has i j → (0 ≤ q ∧ q < c.nqty) →
        ∃ a < P, (c.ins a).Has i j ∧
          ((m a).ub c.ai (addr2 0 (c.ins a) c.nqty i j q)).isSome ∧
          (m' b).ub c.ao (addr2 c.permute (c.outs b) c.nqty i j q) =
            (m a).ub c.ai (addr2 0 (c.ins a) c.nqty i j q) := by
  have hv : c.Valid P := ⟨hin.disjoint, hq, hp, hf⟩
  obtain ⟨m', h1, h2, _⟩ := remap2_main e hv hs hm
  refine ⟨m', h1.terminates, ?_⟩
  intro b hb i j q hbx hq'
  obtain ⟨hi, hj⟩ := hout.inside b hb i j hbx
  obtain ⟨a, ha, hax⟩ := hin.owner i j hi hj
  refine ⟨a, ha, hax, ?_, h2.moved a ha b hb i j q hax hbx hq'⟩
  have hr := addr2_range (permute := 0) (Or.inl rfl) hax hq'
  exact hm.inp a ha _ hr.1 (by simpa using hr.2)

example : ∃ (obj : Nat → RemapObj Int PackPlan2) (m' : Nat → LMem Int),
    Terminates false 2 ((demo2 1 2 true 0 1).prog obj) demo2Mem m' ∧
    -- point (1,1) of rank 1, first value: it was element 2 of rank 1's input
    (m' 1).ub 1 2 = some 1002 := by
  obtain ⟨obj, hs⟩ := setup2_exists (α := Int) 2 (demo2 1 2 true 0 1) (by decide)
    (Or.inr rfl) flag2
  obtain ⟨m', h1, h2⟩ := C39_remap2d_delivers false (demo2 1 2 true 0 1) 2 2
    (demo2_tiles_in _ _ _ _ _) (demo2_tiles_out _ _ _ _ _) (by decide) (Or.inr rfl)
    flag2 obj hs demo2Mem (demo2_fits 1 true 0 1 (Or.inr rfl) hs)
  obtain ⟨a, ha, hax, _, he⟩ := h2 1 (by decide) 1 1 0 (by decide) (by decide)
  have : a = 1 := by simp only [demo2, Box2.Has] at hax; omega
  subst this
  exact ⟨obj, m', h1, he⟩

/-! ## C39, as C02 -/

/-- **C39 (as C02).**  `in == out`: for every point of the output box the value is the one that the call with
two distinct arrays produces.  `c` is the call in place (array `c.ai = c.ao`), `c'` the same call with
distinct arrays; the input arrays agree on the input boxes. -/
theorem C39_remap2d_in_place (e e' : Bool) {P : Nat} (c c' : Call2) (nfast nslow : Int)
    (hin : Tiles2 P c.ins nfast nslow) (hout : Tiles2 P c.outs nfast nslow)
    (hv : c.Valid P) (hplace : c.ai = c.ao) (hdist : c'.ai ≠ c'.ao)
    (hc : c' = { c with ai := c'.ai, ao := c'.ao })
    (obj : Nat → RemapObj α PackPlan2) (hs : c.Setup P obj)
    (m m2 : Nat → LMem α) (hm : c.Fits P obj m) (hm2 : c'.Fits P obj m2)
    (hsame : ∀ r < P, ∀ x, 0 ≤ x → x < c.nqty * (c.ins r).count →
      (m2 r).ub c'.ai x = (m r).ub c.ai x) :
    ∃ m' m2', Terminates e P (c.prog obj) m m' ∧ Terminates e' P (c'.prog obj) m2 m2' ∧
      ∀ b < P, ∀ x, 0 ≤ x → x < c.nqty * (c.outs b).count →
        (m' b).ub c.ao x = (m2' b).ub c'.ao x ∧ ((m' b).ub c.ao x).isSome := by
  have hs' : c'.Setup P obj := by rw [hc]; exact hs
  have hv' : c'.Valid P := by rw [hc]; exact ⟨hv.disjoint, hv.nqty, hv.permute, hv.packflag⟩
  obtain ⟨m', h1, h2, hd1⟩ := remap2_main e hv hs hm
  obtain ⟨m2', h3, h4, _⟩ := remap2_main e' hv' hs' hm2
  refine ⟨m', m2', h1.terminates, h3.terminates, ?_⟩
  intro b hb x hx0 hx1
  refine ⟨?_, by rw [(hd1 b hb).1]; exact hm.out b hb x hx0 (by simpa using hx1)⟩
  obtain ⟨i, j, q, hbx, hq, rfl⟩ := addr2_surj (permute := c.permute) hv.permute
    (by have := hv.nqty; omega) hx0 hx1
  obtain ⟨hi, hj⟩ := hout.inside b hb i j hbx
  obtain ⟨a, ha, hax⟩ := hin.owner i j hi hj
  have r1 := h2.moved a ha b hb i j q hax hbx hq
  have r2 := h4.moved a ha b hb i j q (by rw [hc]; exact hax) (by rw [hc]; exact hbx)
    (by rw [hc]; exact hq)
  have e1 : c'.permute = c.permute := by rw [hc]
  have e2 : c'.outs = c.outs := by rw [hc]
  have e3 : c'.ins = c.ins := by rw [hc]
  have e4 : c'.nqty = c.nqty := by rw [hc]
  simp only [e1, e2, e3, e4] at r2
  rw [r1, r2]
  have hr := addr2_range (permute := 0) (Or.inl rfl) hax hq
  exact (hsame a ha _ hr.1 hr.2).symm

example : ∃ (obj : Nat → RemapObj Int PackPlan2) (m' m2' : Nat → LMem Int),
    Terminates false 2 ((demo2 1 2 false 0 0).prog obj) demo2Mem m' ∧
    Terminates false 2 ((demo2 1 2 false 0 1).prog obj) demo2Mem m2' ∧
    (m' 1).ub 0 2 = (m2' 1).ub 1 2 := by
  obtain ⟨obj, hs⟩ := setup2_exists (α := Int) 2 (demo2 1 2 false 0 0) (by decide)
    (Or.inr rfl) flag2
  obtain ⟨m', m2', h1, h2, h3⟩ := C39_remap2d_in_place false false (demo2 1 2 false 0 0)
    (demo2 1 2 false 0 1) 2 2 (demo2_tiles_in _ _ _ _ _) (demo2_tiles_out _ _ _ _ _)
    (demo2_valid _ _ _ _ _ (Or.inr rfl) flag2) rfl (by decide) rfl obj hs
    demo2Mem demo2Mem (demo2_fits 1 false 0 0 (Or.inr rfl) hs)
    (demo2_fits 1 false 0 1 (Or.inr rfl) hs) (fun _ _ _ _ _ => rfl)
  exact ⟨obj, m', m2', h1, h2, (h3 1 (by decide) 2 (by decide) (by decide)).1⟩

/-! ## C39, as C03 -/

/-- Only the arrays of the call exist, with exactly the promised sizes: `in` of `nqty*insize`, `out`
of `nqty*outsize` (the larger of both if they are the same array), the buffers of the sizes returned
by `setup`.  Everything else is inaccessible. -/
structure ExactMem2 (P : Nat) (c : Call2) (obj : Nat → RemapObj α PackPlan2) (m : Nat → LMem α) :
    Prop where
  ub : ∀ r < P, ∀ n x, ((m r).ub n x).isSome ↔ 0 ≤ x ∧
    ((n = c.ai ∧ x < c.nqty * (c.ins r).count) ∨ (n = c.ao ∧ x < c.nqty * (c.outs r).count))
  sb : ∀ r < P, ∀ x, ((m r).sb x).isSome ↔ 0 ≤ x ∧ x < (obj r).sendsize
  rb : ∀ r < P, ∀ x, ((m r).rb x).isSome ↔ 0 ≤ x ∧ x < (obj r).recvsize

/-- **C39 (as C03).**  With arrays and buffers of exactly the promised sizes no rank ever accesses anything
else, in any execution: no reachable state `Fails` (an access outside makes the rank fail), the
remap completes, and the same locations are accessible afterwards. -/
theorem C39_remap2d_in_bounds (e : Bool) {P : Nat} (c : Call2) (hv : c.Valid P)
    (obj : Nat → RemapObj α PackPlan2) (hs : c.Setup P obj)
    (m : Nat → LMem α) (hm : ExactMem2 P c obj m) :
    (∀ k cfg, Run e k (initCfg P (c.prog obj) m) cfg → ∀ r, ¬ Fails cfg r) ∧
    ∃ m', Terminates e P (c.prog obj) m m' ∧ ExactMem2 P c obj m' := by
  have hf : c.Fits P obj m :=
    ⟨fun r hr x h0 h1 => (hm.ub r hr _ x).mpr ⟨h0, Or.inl ⟨rfl, by simpa using h1⟩⟩,
     fun r hr x h0 h1 => (hm.ub r hr _ x).mpr ⟨h0, Or.inr ⟨rfl, by simpa using h1⟩⟩,
     fun r hr x h0 h1 => (hm.sb r hr x).mpr ⟨h0, by simpa using h1⟩,
     fun r hr x h0 h1 => (hm.rb r hr x).mpr ⟨h0, by simpa using h1⟩⟩
  obtain ⟨m', h1, _, h3⟩ := remap2_main e hv hs hf
  refine ⟨h1.terminates.safe, m', h1.terminates, ?_, ?_, ?_⟩
  · intro r hr n x; rw [(h3 r hr).1]; exact hm.ub r hr n x
  · intro r hr x; rw [(h3 r hr).2.1]; exact hm.sb r hr x
  · intro r hr x; rw [(h3 r hr).2.2]; exact hm.rb r hr x

/-- Memory of exactly the required size. -/
def tightMem2 (c : Call2) (obj : Nat → RemapObj α PackPlan2) (v : α) (r : Nat) : LMem α where
  ub n x := if 0 ≤ x ∧ ((n = c.ai ∧ x < c.nqty * (c.ins r).count) ∨
    (n = c.ao ∧ x < c.nqty * (c.outs r).count)) then some v else none
  sb x := if 0 ≤ x ∧ x < (obj r).sendsize then some v else none
  rb x := if 0 ≤ x ∧ x < (obj r).recvsize then some v else none

theorem tightMem2_exact (P : Nat) (c : Call2) (obj : Nat → RemapObj α PackPlan2) (v : α) :
    ExactMem2 P c obj (tightMem2 c obj v) := by
  constructor
  · intro r _ n x; simp only [tightMem2]; split_ifs with h <;> simp [h]
  · intro r _ x; simp only [tightMem2]; split_ifs with h <;> simp [h]
  · intro r _ x; simp only [tightMem2]; split_ifs with h <;> simp [h]

example : ∃ (obj : Nat → RemapObj Int PackPlan2) (m' : Nat → LMem Int),
    Terminates false 2 ((demo2 1 0 true 0 1).prog obj) (tightMem2 (demo2 1 0 true 0 1) obj 7) m' := by
  obtain ⟨obj, hs⟩ := setup2_exists (α := Int) 2 (demo2 1 0 true 0 1) (by decide)
    (Or.inr rfl) (Or.inl rfl)
  obtain ⟨_, m', h, _⟩ := C39_remap2d_in_bounds false (demo2 1 0 true 0 1)
    (demo2_valid _ _ _ _ _ (Or.inr rfl) (Or.inl rfl)) obj hs _
    (tightMem2_exact 2 _ obj 7)
  exact ⟨obj, m', h⟩

/-! ## C39, as C04 -/

/-- **C39 (as C04).**  Any sequence of remaps, executed by all ranks, in synchronous mode (`MPI_Send` returns
only after the matching receive has been posted): there is a number `n` such that every execution
has at most `n` steps, and every execution that has been scheduled in any way so far can be
continued until all ranks have returned from all calls. -/
theorem C39_remap2d_no_deadlock {P : Nat} (l : List (Call2 × (Nat → RemapObj α PackPlan2)))
    (m : Nat → LMem α) (hv : ∀ c ∈ l, c.1.Valid P) (hs : ∀ c ∈ l, c.1.Setup P c.2)
    (hf : ∀ c ∈ l, c.1.Fits P c.2 m) :
    ∃ n, ∀ k cfg, Run false k (initCfg P (seqProg2 l) m) cfg →
      k ≤ n ∧ (∃ cfg', Run false (n - k) cfg cfg' ∧ Final cfg') ∧
      ((∀ r ch, step false cfg r ch = none) → Final cfg) := by
  obtain ⟨m', h, _⟩ := remapSeq2_main false l m hv hs hf
  obtain ⟨n, hn⟩ := h.terminates.bounded
  refine ⟨n, fun k cfg hr => ⟨(hn k cfg hr).1, ⟨_, (hn k cfg hr).2, finalCfg_final P m m'⟩, ?_⟩⟩
  intro hst
  rw [h.terminates.stuck k cfg hr hst]
  exact finalCfg_final P m m'

example : ∃ (obj obj' : Nat → RemapObj Int PackPlan2), ∃ n, ∀ k cfg,
    Run false k (initCfg 2 (seqProg2 [(demo2 1 2 false 0 1, obj), (demo2 0 2 true 1 0, obj')]) demo2Mem) cfg →
      k ≤ n ∧ ∃ cfg', Run false (n - k) cfg cfg' ∧ Final cfg' := by
  obtain ⟨obj, hs⟩ := setup2_exists (α := Int) 2 (demo2 1 2 false 0 1) (by decide)
    (Or.inr rfl) flag2
  obtain ⟨obj', hs'⟩ := setup2_exists (α := Int) 2 (demo2 0 2 true 1 0) (by decide)
    (Or.inl rfl) flag2
  obtain ⟨n, hn⟩ := C39_remap2d_no_deadlock
    [(demo2 1 2 false 0 1, obj), (demo2 0 2 true 1 0, obj')] demo2Mem
    (by
      intro c hc
      simp only [List.mem_cons, List.not_mem_nil, or_false] at hc
      rcases hc with rfl | rfl
      · exact demo2_valid _ _ _ _ _ (Or.inr rfl) flag2
      · exact demo2_valid _ _ _ _ _ (Or.inl rfl) flag2)
    (by
      intro c hc
      simp only [List.mem_cons, List.not_mem_nil, or_false] at hc
      rcases hc with rfl | rfl
      · exact hs
      · exact hs')
    (by
      intro c hc
      simp only [List.mem_cons, List.not_mem_nil, or_false] at hc
      rcases hc with rfl | rfl
      · exact demo2_fits 1 false 0 1 (Or.inr rfl) hs
      · exact demo2_fits 0 true 1 0 (Or.inl rfl) hs')
  exact ⟨obj, obj', n, fun k cfg h => ⟨(hn k cfg h).1, (hn k cfg h).2.1⟩⟩

/-! ## C39, as C05 -/

/-- **C39 (as C05).**  Two executions of the same sequence of remaps from the same memories, with different
schedules and different choices of `MPI_Waitany`, even one with and one without buffering of sends:
when both have ended (no rank can move), all memories of all ranks are identical. -/
theorem C39_remap2d_schedule_independent {P : Nat}
    (l : List (Call2 × (Nat → RemapObj α PackPlan2)))
    (m : Nat → LMem α) (hv : ∀ c ∈ l, c.1.Valid P) (hs : ∀ c ∈ l, c.1.Setup P c.2)
    (hf : ∀ c ∈ l, c.1.Fits P c.2 m) (e1 e2 : Bool) (k1 k2 : Nat) (cfg1 cfg2 : Config α)
    (h1 : Run e1 k1 (initCfg P (seqProg2 l) m) cfg1) (s1 : ∀ r ch, step e1 cfg1 r ch = none)
    (h2 : Run e2 k2 (initCfg P (seqProg2 l) m) cfg2) (s2 : ∀ r ch, step e2 cfg2 r ch = none) :
    cfg1 = cfg2 ∧ Final cfg1 := by
  obtain ⟨m1, t1, _⟩ := remapSeq2_main e1 l m hv hs hf
  obtain ⟨m2, t2, _⟩ := remapSeq2_main e2 l m hv hs hf
  obtain ⟨mf, tf, _⟩ := remapSeq2_main false l m hv hs hf
  -- a synchronous execution is also an execution with buffering
  have mono : ∀ (e : Bool) n (a b : Config α), Run false n a b → Run e n a b := by
    intro e n a b h
    induction h with
    | refl => exact Run.refl _
    | @step n c c' c'' r ch hst _ ih =>
      refine Run.step r ch ?_ ih
      rw [step_eq_eff] at hst ⊢
      obtain ⟨A, ha, hA⟩ := Option.bind_eq_some_iff.mp hst
      rw [ha, Option.bind_some]
      cases A with
      | tau => exact hA
      | push => exact hA
      | pop => exact hA
      | sync d st =>
        obtain ⟨hc, rfl⟩ := eff_sync_of hA
        simp only [eff]
        rw [if_pos]
        rcases hc with hc | hc
        · cases hc
        · exact Or.inr hc
  have key : ∀ (e : Bool) (m' : Nat → LMem α), Terminates e P (seqProg2 l) m m' →
      finalCfg P m m' = finalCfg P m mf := by
    intro e m' t
    obtain ⟨n, hn⟩ := tf.terminates.bounded
    have hrun := (hn 0 _ (Run.refl _)).2
    exact (t.stuck _ _ (mono e _ _ _ hrun)
      (fun r ch => (finalCfg_final P m mf).no_step r ch)).symm
  have c1 := t1.terminates.stuck k1 cfg1 h1 s1
  have c2 := t2.terminates.stuck k2 cfg2 h2 s2
  refine ⟨?_, by rw [c1]; exact finalCfg_final P m m1⟩
  rw [c1, c2, key e1 m1 t1.terminates, key e2 m2 t2.terminates]

example : ∃ (obj : Nat → RemapObj Int PackPlan2), ∀ k1 k2 cfg1 cfg2,
    Run false k1 (initCfg 2 (seqProg2 [(demo2 1 2 false 0 1, obj)]) demo2Mem) cfg1 →
    (∀ r ch, step false cfg1 r ch = none) →
    Run true k2 (initCfg 2 (seqProg2 [(demo2 1 2 false 0 1, obj)]) demo2Mem) cfg2 →
    (∀ r ch, step true cfg2 r ch = none) → cfg1 = cfg2 := by
  obtain ⟨obj, hs⟩ := setup2_exists (α := Int) 2 (demo2 1 2 false 0 1) (by decide)
    (Or.inr rfl) flag2
  refine ⟨obj, fun k1 k2 cfg1 cfg2 h1 s1 h2 s2 => (C39_remap2d_schedule_independent
    [(demo2 1 2 false 0 1, obj)] demo2Mem ?_ ?_ ?_ false true k1 k2 cfg1 cfg2 h1 s1 h2 s2).1⟩
  · intro c hc
    rw [List.mem_singleton] at hc; subst hc
    exact demo2_valid _ _ _ _ _ (Or.inr rfl) flag2
  · intro c hc
    rw [List.mem_singleton] at hc; subst hc
    exact hs
  · intro c hc
    rw [List.mem_singleton] at hc; subst hc
    exact demo2_fits 1 false 0 1 (Or.inr rfl) hs

/-! ## C39, as C06 -/

/-- Rank `a` owns an input point that rank `b` owns in the output layout. -/
def Call2.Shares (c : Call2) (a b : Nat) : Prop :=
  ∃ i j, (c.ins a).Has i j ∧ (c.outs b).Has i j

theorem src2_ne_nil {c : Call2} (hq : 1 ≤ c.nqty) (a b : Nat) :
    src2 c.ins c.outs c.nqty a b ≠ [] ↔ c.Shares a b := by
  constructor
  · intro h
    obtain ⟨x, hx⟩ := List.exists_mem_of_ne_nil _ h
    obtain ⟨⟨i, j, k, q⟩, h1, _⟩ := List.mem_map.mp hx
    rw [mem_boxPts, inter3_has, Box2.lift_has, Box2.lift_has] at h1
    exact ⟨i, j, h1.1.1.1, h1.1.2.1⟩
  · rintro ⟨i, j, h⟩ h0
    have : (i, j, (0 : Int), (0 : Int)) ∈ boxPts (inter3 (c.ins a).lift (c.outs b).lift) c.nqty := by
      rw [mem_boxPts, inter3_has, Box2.lift_has, Box2.lift_has]
      exact ⟨⟨⟨h.1, rfl⟩, h.2, rfl⟩, by omega⟩
    have := List.mem_map_of_mem
      (f := fun p : Int × Int × Int × Int =>
        addr3 0 (c.ins a).lift c.nqty p.1 p.2.1 p.2.2.1 p.2.2.2) this
    rw [show List.map _ _ = src2 c.ins c.outs c.nqty a b from rfl, h0] at this
    cases this

/-- **C39 (as C06).**  For arbitrary boxes on all ranks: rank `a` plans a message of `n` scalars to rank `b`
iff rank `b` plans to receive `n` scalars from `a`, and this happens iff `a` owns data for `b`; at
most one message per peer; no empty messages.  `sends`/`recvs` include the part a rank keeps for
itself; `p2pSends`/`p2pRecvs` are the `MPI_Send`s and `MPI_Irecv`s of point-to-point mode, which are
exactly those with another rank. -/
theorem C39_remap2d_matching {P : Nat} (c : Call2) (hq : 1 ≤ c.nqty)
    (hp : c.permute = 0 ∨ c.permute = 1)
    (hf : FlagOk2 c.w c.packflag)
    (obj : Nat → RemapObj α PackPlan2) (hs : c.Setup P obj) :
    (∀ a < P, ∀ b < P, ∀ n,
      (∃ s ∈ (obj a).sends, s.proc = b ∧ s.size = n) ↔ (∃ t ∈ (obj b).recvs, t.proc = a ∧ t.size = n)) ∧
    (∀ a < P, ∀ b < P, (∃ s ∈ (obj a).sends, s.proc = b) ↔ c.Shares a b) ∧
    (∀ a < P, ((obj a).sends.map SEnt.proc).Nodup ∧ ((obj a).recvs.map REnt.proc).Nodup ∧
      (∀ s ∈ (obj a).sends, s.proc < P ∧ 0 < s.size) ∧
      (∀ t ∈ (obj a).recvs, t.proc < P ∧ 0 < t.size)) ∧
    (c.collective = false → ∀ a < P, ∀ b < P, ∀ n ai ao,
      ((∃ s ∈ (obj a).p2pSends ai, s.dst = b ∧ s.size = n) ↔
        (a ≠ b ∧ ∃ s ∈ (obj a).sends, s.proc = b ∧ s.size = n)) ∧
      ((∃ t ∈ (obj b).p2pRecvs ao, t.src = a ∧ t.size = n) ↔
        (a ≠ b ∧ ∃ t ∈ (obj b).recvs, t.proc = a ∧ t.size = n))) := by
  have G := geom2 (α := α) (P := P) (ins := c.ins) (outs := c.outs) hq hp hf
  have hlen : ∀ a b, src2 c.ins c.outs c.nqty a b ≠ [] →
      0 < ((src2 c.ins c.outs c.nqty a b).length : Int) := by
    intro a b h
    have := List.length_pos_of_ne_nil h
    omega
  refine ⟨?_, ?_, ?_, ?_⟩
  · intro a ha b hb n
    rw [(setup_matching G hs ha hb n).1, (setup_matching G hs ha hb n).2]
  · intro a ha b hb
    rw [← src2_ne_nil hq]
    constructor
    · rintro ⟨s, h1, h2⟩
      exact ((setup_matching G hs ha hb s.size).1.mp ⟨s, h1, h2, rfl⟩).1
    · intro h
      obtain ⟨s, h1, h2, _⟩ := (setup_matching G hs ha hb _).1.mpr ⟨h, rfl⟩
      exact ⟨s, h1, h2⟩
  · intro a ha
    obtain ⟨h1, h2⟩ := setup_procs_nodup G ha (hs a ha)
    refine ⟨h1, h2, ?_, ?_⟩
    · intro s hs'
      rw [(setup_lists (hs a ha)).1] at hs'
      obtain ⟨h3, h4, h5, _⟩ := sEnts_mem G ha _ (procLoop_lt P a ha) hs'
      exact ⟨procLoop_lt P a ha _ h3, by rw [h5]; exact hlen _ _ h4⟩
    · intro t ht
      rw [(setup_lists (hs a ha)).2] at ht
      obtain ⟨h3, h4, h5, _⟩ := rEnts_mem G ha _ (procLoop_lt P a ha) 0 ht
      have := procLoop_lt P a ha _ h3
      exact ⟨this, by rw [h5, G.len _ this _ ha]; exact hlen _ _ h4⟩
  · intro hc a ha b hb n ai ao
    have hs' : ∀ r < P, remapSetup (dim2 c.w) P r c.ins c.outs c.nqty c.permute c.packflag false =
        some (obj r) := by rw [← hc]; exact hs
    have h1 := setup_matching_p2p G hs' ha hb n
    have h2 := setup_matching G hs' ha hb n
    rw [h2.1, h2.2]
    refine ⟨Iff.trans ?_ h1.1, Iff.trans ?_ h1.2⟩ <;>
      simp [RemapObj.p2pSends, RemapObj.p2pRecvs, ← List.map_take]

example : ∃ (obj : Nat → RemapObj Int PackPlan2),
    (∃ s ∈ (obj 0).sends, s.proc = 1 ∧ s.size = 2) ∧ (∃ t ∈ (obj 1).recvs, t.proc = 0 ∧ t.size = 2) := by
  obtain ⟨obj, hs⟩ := setup2_exists (α := Int) 2 (demo2 1 2 false 0 1) (by decide)
    (Or.inr rfl) flag2
  have h := C39_remap2d_matching (demo2 1 2 false 0 1) (by decide) (Or.inr rfl)
    flag2 obj hs
  have h0 : (∃ s ∈ (obj 0).sends, s.proc = 1 ∧ s.size = 2) := by
    have h1 := hs 0 (by decide)
    have h2 : ((remapSetup (α := Int) (dim2 1) 2 0 (fun r => ⟨0, 1, r, r⟩)
        (fun r => ⟨r, r, 0, 1⟩) 2 1 2 false).map fun o =>
          (o.sends.map fun s => (s.proc, s.size))) = some [(1, 2), (0, 2)] := by decide
    simp only [demo2] at h1
    rw [h1, Option.map_some, Option.some.injEq] at h2
    have : ((1 : Nat), (2 : Int)) ∈ (obj 0).sends.map fun s => (s.proc, s.size) := by rw [h2]; simp
    obtain ⟨s, h3, h4⟩ := List.mem_map.mp this
    simp only [Prod.mk.injEq] at h4
    exact ⟨s, h3, h4⟩
  exact ⟨obj, h0, (h.1 0 (by decide) 1 (by decide) 2).mp h0⟩

/-! ## C39, as C07 -/

/-- The output does not depend on the settings `collective`, `packflag`. -/
theorem remap2_settings (e1 e2 : Bool) {P : Nat} (c1 c2 : Call2)
    (hc : c2 = { c1 with collective := c2.collective, packflag := c2.packflag, inst := c2.inst })
    (hv1 : c1.Valid P) (hv2 : c2.Valid P) (obj1 obj2 : Nat → RemapObj α PackPlan2)
    (hs1 : c1.Setup P obj1) (hs2 : c2.Setup P obj2) (m1 m2 : Nat → LMem α)
    (hm1 : c1.Fits P obj1 m1) (hm2 : c2.Fits P obj2 m2) (hu : ∀ r < P, (m1 r).ub = (m2 r).ub) :
    ∃ m1' m2', Terminates e1 P (c1.prog obj1) m1 m1' ∧ Terminates e2 P (c2.prog obj2) m2 m2' ∧
      ∀ r < P, (m1' r).ub = (m2' r).ub := by
  obtain ⟨m1', a1, a2⟩ := remap2_stage e1 hv1 hs1 hm1
  obtain ⟨m2', b1, b2⟩ := remap2_stage e2 hv2 hs2 hm2
  refine ⟨m1', m2', a1.terminates, b1.terminates, fun r hr => ?_⟩
  rw [(a2 r hr).1, (b2 r hr).1, hu r hr]
  have e1 : c2.permute = c1.permute := by rw [hc]
  have e2 : c2.outs = c1.outs := by rw [hc]
  have e3 : c2.ins = c1.ins := by rw [hc]
  have e4 : c2.nqty = c1.nqty := by rw [hc]
  have e5 : c2.ai = c1.ai := by rw [hc]
  have e6 : c2.ao = c1.ao := by rw [hc]
  rw [e1, e2, e3, e4, e5, e6]
  congr 1
  simp only [deliver, hu r hr]
  congr 1
  apply List.flatMap_congr
  intro a ha
  simp only [msg, hu a (List.mem_range.mp ha)]

/-- **C39 (as C07).**  Point-to-point and collective mode leave exactly the same user arrays (all of them,
including everything outside the output box). -/
theorem C39_remap2d_modes_agree (e1 e2 : Bool) {P : Nat} (c : Call2) (hv : c.Valid P)
    (obj1 obj2 : Nat → RemapObj α PackPlan2)
    (hs1 : { c with collective := false }.Setup P obj1)
    (hs2 : { c with collective := true }.Setup P obj2)
    (m1 m2 : Nat → LMem α) (hm1 : { c with collective := false }.Fits P obj1 m1)
    (hm2 : { c with collective := true }.Fits P obj2 m2) (hu : ∀ r < P, (m1 r).ub = (m2 r).ub) :
    ∃ m1' m2', Terminates e1 P ({ c with collective := false }.prog obj1) m1 m1' ∧
      Terminates e2 P ({ c with collective := true }.prog obj2) m2 m2' ∧
      ∀ r < P, (m1' r).ub = (m2' r).ub :=
  remap2_settings e1 e2 { c with collective := false } { c with collective := true } rfl
    ⟨hv.disjoint, hv.nqty, hv.permute, hv.packflag⟩ ⟨hv.disjoint, hv.nqty, hv.permute, hv.packflag⟩
    obj1 obj2 hs1 hs2 m1 m2 hm1 hm2 hu

example : ∃ (obj1 obj2 : Nat → RemapObj Int PackPlan2) (m1' m2' : Nat → LMem Int),
    Terminates false 2 ((demo2 1 2 false 0 1).prog obj1) demo2Mem m1' ∧
    Terminates false 2 ((demo2 1 2 true 0 1).prog obj2) demo2Mem m2' ∧
    ∀ r < 2, (m1' r).ub = (m2' r).ub := by
  obtain ⟨obj1, hs1⟩ := setup2_exists (α := Int) 2 (demo2 1 2 false 0 1) (by decide)
    (Or.inr rfl) flag2
  obtain ⟨obj2, hs2⟩ := setup2_exists (α := Int) 2 (demo2 1 2 true 0 1) (by decide)
    (Or.inr rfl) flag2
  obtain ⟨m1', m2', h⟩ := C39_remap2d_modes_agree false false (demo2 1 2 true 0 1)
    (demo2_valid _ _ _ _ _ (Or.inr rfl) flag2) obj1 obj2 hs1 hs2 demo2Mem demo2Mem
    (demo2_fits 1 false 0 1 (Or.inr rfl) hs1) (demo2_fits 1 true 0 1 (Or.inr rfl) hs2)
    (fun _ _ => rfl)
  exact ⟨obj1, obj2, m1', m2', h⟩

/-! ## C39, as C08 -/

/-- **C39 (as C08), routines.**  The three variants of every pack and unpack routine do the same: same new
buffer, or all of them access memory they must not.  (`p.Ok`: non-negative sizes, positive strides.)
-/
theorem C39_pack2d_variants {w f1 f2 : Int} (h1 : FlagOk2 w f1) (h2 : FlagOk2 w f2)
    {permute nqty : Int} (hp : permute = 0 ∨ permute = 1) :
    (∃ F1 F2, packSel2 (α := α) w f1 = some F1 ∧ packSel2 (α := α) w f2 = some F2 ∧
      ∀ data d buf b (p : PackPlan2), p.Ok → F1 data d buf b p = F2 data d buf b p) ∧
    (∃ F1 F2, unpackSel2 (α := α) w f1 permute nqty = some F1 ∧
      unpackSel2 (α := α) w f2 permute nqty = some F2 ∧
      ∀ buf b data d (p : PackPlan2), p.Ok → p.nqty = nqty →
        F1 buf b data d p = F2 buf b data d p) := by
  obtain ⟨F1, a1, a2⟩ := packSel2_eq (α := α) h1
  obtain ⟨F2, b1, b2⟩ := packSel2_eq (α := α) h2
  obtain ⟨U1, c1, c2⟩ := unpackSel2_eq (α := α) (nqty := nqty) h1 hp
  obtain ⟨U2, d1, d2⟩ := unpackSel2_eq (α := α) (nqty := nqty) h2 hp
  exact ⟨⟨F1, F2, a1, b1, fun data d buf b p hk => by rw [a2 _ _ _ _ p hk, b2 _ _ _ _ p hk]⟩,
    ⟨U1, U2, c1, d1, fun buf b data d p hk hn => by rw [c2 _ _ _ _ p hk hn, d2 _ _ _ _ p hk hn]⟩⟩

/-- The plan of a 2 x 3 box inside a 4 x 5 box. -/
example : (⟨2 * 2, 3, 2 * 4, 2⟩ : PackPlan2).Ok := by constructor <;> decide

/-- **C39 (as C08), remap.**  `packflag` does not change any user array. -/
theorem C39_remap2d_packflag (e1 e2 : Bool) {P : Nat} (c : Call2) (f : Int)
    (hf : FlagOk2 c.w f) (hv : c.Valid P)
    (obj1 obj2 : Nat → RemapObj α PackPlan2)
    (hs1 : c.Setup P obj1) (hs2 : { c with packflag := f }.Setup P obj2)
    (m : Nat → LMem α) (hm1 : c.Fits P obj1 m) (hm2 : { c with packflag := f }.Fits P obj2 m) :
    ∃ m1' m2', Terminates e1 P (c.prog obj1) m m1' ∧
      Terminates e2 P ({ c with packflag := f }.prog obj2) m m2' ∧
      ∀ r < P, (m1' r).ub = (m2' r).ub :=
  remap2_settings e1 e2 c { c with packflag := f } rfl hv
    ⟨hv.disjoint, hv.nqty, hv.permute, hf⟩ obj1 obj2 hs1 hs2 m m hm1 hm2 (fun _ _ => rfl)

/-! ## C39, as C09 -/

/-- Two ranks are linked when one of them has to send data to the other. -/
def Call2.Linked (P : Nat) (c : Call2) (a b : Nat) : Prop :=
  a < P ∧ b < P ∧ (c.Shares a b ∨ c.Shares b a)

theorem talk2_eq {c : Call2} (hq : 1 ≤ c.nqty) (P : Nat) :
    Talk P (src2 c.ins c.outs c.nqty) = c.Linked P := by
  funext a b
  simp only [Talk, Call2.Linked, ← src2_ne_nil hq]

/-- **C39 (as C09).**  In collective mode, for arbitrary boxes: setup returns, and for every rank `r` the
group is the sorted list of exactly the ranks reachable from `r` through links.  Therefore two ranks
have identical groups or disjoint groups; a rank is a member of its own group iff it is linked to
somebody, otherwise its group is empty; and a rank that owns input data for a point of somebody's
output box is a member of its own group. -/
theorem C39_remap2d_groups {P : Nat} (c : Call2) (hq : 1 ≤ c.nqty)
    (hp : c.permute = 0 ∨ c.permute = 1)
    (hf : FlagOk2 c.w c.packflag) (hc : c.collective = true) :
    ∃ (obj : Nat → RemapObj α PackPlan2) (ci : Nat → CollInfo), c.Setup P obj ∧
      ∀ r < P, (obj r).coll = some (ci r) ∧
        (∀ j, j ∈ (ci r).pgroup ↔ TransGen (c.Linked P) r j) ∧
        (ci r).pgroup.Pairwise (· < ·) ∧ (ci r).pgroup.length ≤ P ∧
        (∀ s < P, (ci r).pgroup = (ci s).pgroup ∨ ∀ j ∈ (ci r).pgroup, j ∉ (ci s).pgroup) ∧
        (r ∈ (ci r).pgroup ↔ ∃ s, c.Linked P r s) ∧
        ((¬ ∃ s, c.Linked P r s) → (ci r).pgroup = []) ∧
        (ci r).newcomm = decide (r ∈ (ci r).pgroup) := by
  have G := geom2 (α := α) (P := P) (ins := c.ins) (outs := c.outs) hq hp hf
  obtain ⟨obj, hs⟩ := setup2_exists (α := α) P c hq hp hf
  have hs' : ∀ r < P, remapSetup (dim2 c.w) P r c.ins c.outs c.nqty c.permute c.packflag true =
        some (obj r) := by rw [← hc]; exact hs
  have hex : ∀ r < P, ∃ ci : CollInfo, (obj r).coll = some ci := by
    intro r hr
    obtain ⟨o, g, h1, h2⟩ := collObj_exists G hr
    rw [hs' r hr] at h1
    injection h1 with h1
    rw [h1]
    exact ⟨_, h2.coll⟩
  have : Nonempty CollInfo := ⟨⟨[], false, [], []⟩⟩
  choose! ci hci using hex
  refine ⟨obj, ci, hs, ?_⟩
  have O : ∀ r < P, CollObj (dim2 c.w) P c.ins c.outs c.nqty c.permute c.packflag
      (src2 c.ins c.outs c.nqty) r (obj r) (ci r).pgroup :=
    fun r hr => setup_collObj G hr (hs' r hr) (hci r hr)
  intro r hr
  have hmem : ∀ j, j ∈ (ci r).pgroup ↔ TransGen (c.Linked P) r j := by
    intro j; rw [(O r hr).mem_group, talk2_eq hq]
  have hsort := group_sorted (O r hr)
  have hsym : ∀ a b, c.Linked P a b → c.Linked P b a := fun a b h => ⟨h.2.1, h.1, h.2.2.symm⟩
  have hself : r ∈ (ci r).pgroup ↔ ∃ s, c.Linked P r s := by
    rw [hmem]
    constructor
    · intro h
      obtain ⟨s, h1, _⟩ := TransGen.head'_iff.mp h
      exact ⟨s, h1⟩
    · rintro ⟨s, h⟩
      exact TransGen.tail (.single h) (hsym _ _ h)
  refine ⟨hci r hr, hmem, hsort, ?_, ?_, hself, ?_, ?_⟩
  · exact nodup_lt_length (hsort.imp (fun h => Nat.ne_of_lt h)) (O r hr).lt
  · intro s hs
    by_cases h : ∃ j ∈ (ci r).pgroup, j ∈ (ci s).pgroup
    · obtain ⟨j, h1, h2⟩ := h
      left
      have hj := (O r hr).lt j h1
      rw [(O r hr).same (O j hj) h1, (O s hs).same (O j hj) h2]
    · right
      intro j h1 h2
      exact h ⟨j, h1, h2⟩
  · intro h
    rw [List.eq_nil_iff_forall_not_mem]
    intro j hj
    rw [hmem] at hj
    obtain ⟨s, h1, _⟩ := TransGen.head'_iff.mp hj
    exact h ⟨s, h1⟩
  · have := (O r hr).coll
    rw [hci r hr] at this
    injection this with this
    rw [this]

/-- With tilings, a rank that owns any input point or any output point is a member of its own
group, and a rank that owns nothing has an empty group. -/
theorem C39_remap2d_own_group {P : Nat} (c : Call2) (nfast nslow : Int)
    (hin : Tiles2 P c.ins nfast nslow) (hout : Tiles2 P c.outs nfast nslow) {r : Nat}
    (hr : r < P) :
    (∃ s, c.Linked P r s) ↔ ∃ i j, (c.ins r).Has i j ∨ (c.outs r).Has i j := by
  constructor
  · rintro ⟨s, _, _, ⟨i, j, h, _⟩ | ⟨i, j, _, h⟩⟩
    · exact ⟨i, j, Or.inl h⟩
    · exact ⟨i, j, Or.inr h⟩
  · rintro ⟨i, j, h | h⟩
    · obtain ⟨h1, h2⟩ := hin.inside r hr i j h
      obtain ⟨s, hs, h4⟩ := hout.owner i j h1 h2
      exact ⟨s, hr, hs, Or.inl ⟨i, j, h, h4⟩⟩
    · obtain ⟨h1, h2⟩ := hout.inside r hr i j h
      obtain ⟨s, hs, h4⟩ := hin.owner i j h1 h2
      exact ⟨s, hr, hs, Or.inr ⟨i, j, h4, h⟩⟩

/-- 4 ranks, ranks 0 and 1 exchange data, rank 2 keeps its data, rank 3 owns nothing. -/
example : ((List.range 4).map fun r => ((remapSetup (α := Int) (dim2 1) 4 r
    (fun r => ([⟨0, 1, 0, 0⟩, ⟨0, 1, 1, 1⟩, ⟨0, 1, 2, 2⟩] : List Box2).getD r ⟨0, -1, 0, -1⟩)
    (fun r => ([⟨0, 0, 0, 1⟩, ⟨1, 1, 0, 1⟩, ⟨0, 1, 2, 2⟩] : List Box2).getD r ⟨0, -1, 0, -1⟩)
    2 1 0 true).bind fun o => o.coll.map CollInfo.pgroup)) =
    [some [0, 1], some [0, 1], some [2], some []] := by decide

/-! ## C39, as C10 -/

/-- **C39 (as C10).**  Arguments of `MPI_Alltoallv`, arbitrary boxes.  `AlltoallvOK` (RemapFacts.lean) says:
one (displacement, count) per group member, in group order; counts are not negative; non-empty ranges
lie inside the buffer of the size returned by setup and are pairwise disjoint; the pack loop packs
the message for a member into the range given for that member, the unpack loop unpacks from it.
Moreover members of the same group agree about the counts. -/
theorem C39_remap2d_alltoallv {P : Nat} (c : Call2) (hq : 1 ≤ c.nqty)
    (hp : c.permute = 0 ∨ c.permute = 1)
    (hf : FlagOk2 c.w c.packflag) (hc : c.collective = true)
    (obj : Nat → RemapObj α PackPlan2) (hs : c.Setup P obj) (ci : Nat → CollInfo)
    (hci : ∀ r < P, (obj r).coll = some (ci r)) :
    (∀ r < P, AlltoallvOK (dim2 c.w) P r (obj r) (ci r)) ∧
    (∀ a < P, ∀ b ∈ (ci a).pgroup, b < P ∧ (ci b).pgroup = (ci a).pgroup ∧
      ∃ ga ∈ (ci a).sendg, ∃ gb ∈ (ci b).recvg, ga.proc = b ∧ gb.proc = a ∧ ga.cnt = gb.cnt) ∧
    (∀ a < P, ∀ b < P, ∀ ga ∈ (ci a).sendg, ∀ gb ∈ (ci b).recvg,
      ga.proc = b → gb.proc = a → ga.cnt = gb.cnt) := by
  have G := geom2 (α := α) (P := P) (ins := c.ins) (outs := c.outs) hq hp hf
  have hs' : ∀ r < P, remapSetup (dim2 c.w) P r c.ins c.outs c.nqty c.permute c.packflag true =
        some (obj r) := by rw [← hc]; exact hs
  have A := fun r hr => alltoallvOK G hr (hs' r hr) (hci r hr)
  have O := fun r hr => setup_collObj G hr (hs' r hr) (hci r hr)
  have cnt : ∀ a < P, ∀ b < P, ∀ ga ∈ (ci a).sendg, ∀ gb ∈ (ci b).recvg,
      ga.proc = b → gb.proc = a → ga.cnt = gb.cnt := by
    intro a ha b hb ga hga gb hgb h1 h2
    rw [(A a ha).2.1 ga hga, (A b hb).2.2 gb hgb, h1, h2]
  refine ⟨fun r hr => (A r hr).1, ?_, cnt⟩
  intro a ha b hb
  have hbP := (O a ha).lt b hb
  have hsame := (O a ha).same (O b hbP) hb
  have haa : a ∈ (ci b).pgroup := by
    rw [(O b hbP).mem_group]
    exact transGen_symm (fun _ _ => Talk.symm) (((O a ha).mem_group b).mp hb)
  rw [← (A a ha).1.send.procs] at hb
  rw [← (A b hbP).1.recv.procs] at haa
  obtain ⟨ga, h1, h2⟩ := List.mem_map.mp hb
  obtain ⟨gb, h3, h4⟩ := List.mem_map.mp haa
  exact ⟨hbP, hsame.symm, ga, h1, gb, h3, h2, h4, cnt a ha b hbP ga h1 gb h3 h2 h4⟩

/-- Two ranks: rank 0 keeps 2 scalars and sends 2 to rank 1; in the buffer its own part is second in
`sends` (position 1) but first in the group. -/
example : ((remapSetup (α := Int) (dim2 1) 2 0 (fun r => ⟨0, 1, r, r⟩)
    (fun r => ⟨r, r, 0, 1⟩) 2 1 2 true).bind fun o => o.coll.map CollInfo.sendg) =
    some [⟨0, 2, 0, some 1⟩, ⟨1, 2, 2, some 0⟩] := by decide

/-! ## C39, as C12 -/

/-- **C39 (as C12).**  With distinct arrays the input array is unchanged, no other user array changes, and in
the output array nothing beyond the first `nqty*outsize` scalars changes. -/
theorem C39_remap2d_no_side_effects (e : Bool) {P : Nat} (c : Call2) (hv : c.Valid P)
    (obj : Nat → RemapObj α PackPlan2) (hs : c.Setup P obj)
    (m : Nat → LMem α) (hm : c.Fits P obj m) :
    ∃ m', Terminates e P (c.prog obj) m m' ∧ ∀ r < P,
      (c.ai ≠ c.ao → (m' r).ub c.ai = (m r).ub c.ai) ∧
      (∀ n, n ≠ c.ao → (m' r).ub n = (m r).ub n) ∧
      (∀ x, (x < 0 ∨ c.nqty * (c.outs r).count ≤ x) → (m' r).ub c.ao x = (m r).ub c.ao x) := by
  obtain ⟨m', h1, h2, _⟩ := remap2_main e hv hs hm
  refine ⟨m', h1.terminates, fun r hr => ⟨fun h => h2.other r hr _ h, fun n h => h2.other r hr n h, ?_⟩⟩
  intro x hx
  apply h2.frame r hr
  intro i j q h3 h4 he
  have := addr2_range (permute := c.permute) hv.permute h3 h4
  rw [← he] at this
  omega

example : ∃ (obj : Nat → RemapObj Int PackPlan2) (m' : Nat → LMem Int),
    Terminates false 2 ((demo2 1 2 true 0 1).prog obj) demo2Mem m' ∧ (m' 1).ub 0 = (demo2Mem 1).ub 0 := by
  obtain ⟨obj, hs⟩ := setup2_exists (α := Int) 2 (demo2 1 2 true 0 1) (by decide)
    (Or.inr rfl) flag2
  obtain ⟨m', h1, h2⟩ := C39_remap2d_no_side_effects false (demo2 1 2 true 0 1)
    (demo2_valid _ _ _ _ _ (Or.inr rfl) flag2) obj hs demo2Mem
    (demo2_fits 1 true 0 1 (Or.inr rfl) hs)
  exact ⟨obj, m', h1, (h2 1 (by decide)).1 (by decide)⟩

/-! ## C39, as C13 -/

/-- **C39 (as C13).**  A sequence of remaps on the same ranks, all with the same communicator and tag, under
every schedule: the final arrays are those of the calls made one after the other, each call
delivering exactly its own data (`Call2.Post`). -/
theorem C39_remap2d_sequences (e : Bool) {P : Nat} (l : List (Call2 × (Nat → RemapObj α PackPlan2)))
    (m : Nat → LMem α) (hv : ∀ c ∈ l, c.1.Valid P) (hs : ∀ c ∈ l, c.1.Setup P c.2)
    (hf : ∀ c ∈ l, c.1.Fits P c.2 m) :
    ∃ m', Terminates e P (seqProg2 l) m m' ∧
      Chain2 P (l.map Prod.fst) (fun r => (m r).ub) (fun r => (m' r).ub) := by
  obtain ⟨m', h1, h2, _⟩ := remapSeq2_main e l m hv hs hf
  exact ⟨m', h1.terminates, h2⟩

example : ∃ (obj : Nat → RemapObj Int PackPlan2) (m' : Nat → LMem Int),
    Terminates true 2 (seqProg2 [(demo2 1 2 false 0 1, obj), (demo2 1 2 false 2 3, obj)]) demo2Mem m' ∧
    (m' 1).ub 1 2 = some 1002 ∧ (m' 1).ub 3 2 = some 1202 := by
  obtain ⟨obj, hs⟩ := setup2_exists (α := Int) 2 (demo2 1 2 false 0 1) (by decide)
    (Or.inr rfl) flag2
  obtain ⟨m', h1, v, h2, w, h3, h4⟩ := C39_remap2d_sequences true
    [(demo2 1 2 false 0 1, obj), (demo2 1 2 false 2 3, obj)] demo2Mem
    (by intro x hx; simp only [List.mem_cons, List.not_mem_nil, or_false] at hx
        rcases hx with rfl | rfl <;>
        exact demo2_valid _ _ _ _ _ (Or.inr rfl) flag2)
    (by intro x hx; simp only [List.mem_cons, List.not_mem_nil, or_false] at hx
        rcases hx with rfl | rfl <;> exact hs)
    (by intro x hx; simp only [List.mem_cons, List.not_mem_nil, or_false] at hx
        rcases hx with rfl | rfl
        · exact demo2_fits 1 false 0 1 (Or.inr rfl) hs
        · exact demo2_fits 1 false 2 3 (Or.inr rfl) hs)
  have h2' : Call2.Post 2 (demo2 1 2 false 0 1) (fun r => (demo2Mem r).ub) v := h2
  have h3' : Call2.Post 2 (demo2 1 2 false 2 3) v w := h3
  have h4' : (m' 1).ub = w 1 := h4 1 (by decide)
  refine ⟨obj, m', h1, ?_, ?_⟩
  · have r1 := h2'.moved 1 (by decide) 1 (by decide) 1 1 0 (by decide) (by decide) (by decide)
    have r2 := h3'.other 1 (by decide) 1 (by decide)
    rw [h4', r2]
    exact r1
  · have r1 := h3'.moved 1 (by decide) 1 (by decide) 1 1 0 (by decide) (by decide) (by decide)
    have r2 : v 1 2 = (demo2Mem 1).ub 2 := h2'.other 1 (by decide) 2 (by decide)
    rw [h4']
    refine Eq.trans r1 ?_
    rw [show (demo2 1 2 false 2 3).ai = 2 from rfl, r2]
    rfl


/-! ## C40 -/

/-- **C40, what holds.**  In double precision (`w = 1`) the memcpy variants do exactly what the array
variants do.  Missing from C40: the same for single precision, which is false (`C40_memcpy_false`,
`C40_pack_single_overruns`). -/
theorem C40_memcpy_double_partial (data buf : Mem α) (d b : Int) (p : PackPlan2) (h : p.Ok) :
    pack_2d_memcpy 1 data d buf b p = pack_2d_array data d buf b p ∧
    unpack_2d_memcpy 1 buf b data d p = unpack_2d_array buf b data d p := by
  rw [pack_2d_memcpy_eq _ _ _ _ _ h, unpack_2d_memcpy_eq _ _ _ _ _ h, pack_2d_array_eq _ _ _ _ _ h,
    unpack_2d_array_eq _ _ _ _ _ h]
  exact ⟨rfl, rfl⟩

example : (pack_2d_memcpy 1 (Mem.ofFn 20 fun x => x) 5 (Mem.ofFn 6 fun _ => 0) 0 ⟨2, 3, 4, 1⟩).map
    (fun m => (List.range 6).map fun x => m x) =
    some [some 5, some 6, some 9, some 10, some 13, some 14] := by decide

/-- **C40 is false.**  In single precision (`w = 2`) `unpack_2d_memcpy` overwrites data outside its
sub-block, and `pack_2d_memcpy` writes past the end of a buffer of the size that `setup` computes. -/
theorem C40_memcpy_false :
    ¬ (∀ (w : Int), (w = 1 ∨ w = 2) → ∀ (data buf : Mem Int) (d b : Int) (p : PackPlan2), p.Ok →
      pack_2d_memcpy w data d buf b p = pack_2d_array data d buf b p ∧
      unpack_2d_memcpy w buf b data d p = unpack_2d_array buf b data d p) := by
  intro h
  have h1 := (h 2 (Or.inr rfl) (Mem.ofFn 8 fun x => x) (Mem.ofFn 8 fun x => 100 + x) 0 0 ⟨2, 1, 4, 1⟩
    (by constructor <;> decide)).2
  have h2 : (unpack_2d_memcpy 2 (Mem.ofFn 8 fun x => 100 + x) 0 (Mem.ofFn 8 fun x => x) 0
      ⟨2, 1, 4, 1⟩).map (fun m => m 2) = some (some 102) := by decide
  have h3 : (unpack_2d_array (Mem.ofFn 8 fun x => 100 + x) 0 (Mem.ofFn 8 fun x => x) 0
      ⟨2, 1, 4, 1⟩).map (fun m => m 2) = some (some 2) := by decide
  rw [h1, h3] at h2
  exact absurd h2 (by decide)

/-- In single precision every non-empty `pack_2d_memcpy` into a buffer of exactly the message size
(`nfast*nslow` scalars) writes out of bounds, for every plan and every input. -/
theorem C40_pack_single_overruns (data buf : Mem α) (d b : Int) (p : PackPlan2) (hf : 0 < p.nfast)
    (hs : 0 < p.nslow)
    (hbuf : ∀ x, (buf x).isSome ↔ b ≤ x ∧ x < b + p.nfast * p.nslow) :
    pack_2d_memcpy 2 data d buf b p = none := by
  rw [Option.eq_none_iff_forall_not_mem]
  intro m' hm
  unfold pack_2d_memcpy at hm
  simp only [memcpyM_eq _ _ _ _ _ (by omega : (0 : Int) ≤ p.nfast * 2)] at hm
  rw [nest1_0 data _ _ _ (fun i m => rfl)] at hm
  have hmem : (b + (p.nslow - 1) * p.nfast + (p.nfast * 2 - 1),
      d + (p.nslow - 1) * p.nstride + (p.nfast * 2 - 1)) ∈
      (irange p.nslow).flatMap fun i => (irange (p.nfast * 2)).map fun t =>
        (b + i * p.nfast + t, d + i * p.nstride + t) :=
    List.mem_flatMap.mpr ⟨p.nslow - 1, mem_irange.mpr (by omega),
      List.mem_map.mpr ⟨p.nfast * 2 - 1, mem_irange.mpr (by omega), rfl⟩⟩
  have h2 := (copyAll_some hm _ hmem).2
  rw [hbuf] at h2
  have e : (p.nslow - 1) * p.nfast = p.nfast * p.nslow - p.nfast := by ring
  simp only [e] at h2
  omega

example : pack_2d_memcpy 2 (Mem.ofFn 100 fun x => x) 5 (Mem.ofFn 6 fun _ => 0) 0 ⟨2, 3, 4, 1⟩ = none :=
  C40_pack_single_overruns _ _ _ _ _ (by decide) (by decide) (by
    intro x; simp only [Mem.ofFn]; split_ifs with h <;> simp_all)

/-- In single precision the 2d remap works with the array and pointer variants. -/
theorem C40_single_array_pointer (e : Bool) {P : Nat} (c : Call2) (hw : c.w = 2)
    (hf : c.packflag = 0 ∨ c.packflag = 1) (hdis : Disjoint2 P c.ins) (hq : 1 ≤ c.nqty)
    (hp : c.permute = 0 ∨ c.permute = 1) (obj : Nat → RemapObj α PackPlan2) (hs : c.Setup P obj)
    (m : Nat → LMem α) (hm : c.Fits P obj m) :
    ∃ m', Terminates e P (c.prog obj) m m' ∧ c.Post P (fun r => (m r).ub) (fun r => (m' r).ub) := by
  have _ := hw
  obtain ⟨m', h1, h2, _⟩ := remap2_main e
    ⟨hdis, hq, hp, by rcases hf with h | h; exacts [Or.inl h, Or.inr (Or.inl h)]⟩ hs hm
  exact ⟨m', h1.terminates, h2⟩

end FftMpi
