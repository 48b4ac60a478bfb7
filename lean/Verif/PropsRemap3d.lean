import Verif.Remap3dMain
import Verif.RemapFacts

/-!
# Properties C01 - C13: the 3d remap

`Call3` describes one `remap` call made by all ranks, `Call3.Post` is the specification of its
effect on the user arrays.  `Terminates e P prog m m'` says that *every* execution of the parallel
program - whatever the interleaving of the ranks, whatever request `MPI_Waitany` returns - has
bounded length, never gets stuck and ends with memories `m'`.  `e = false` is the strictest MPI
(`MPI_Send` blocks until the receive is posted), `e = true` allows buffering.
-/

namespace FftMpi

open Relation

variable {α : Type}

/-! ## A running example: 2 ranks, 2 x 2 x 2 grid, slabs in `k` to slabs in `i` -/

/-- Example call. -/
def demo (permute packflag : Int) (collective : Bool) (ai ao : Nat) : Call3 where
  ins r := ⟨0, 1, 0, 1, r, r⟩
  outs r := ⟨r, r, 0, 1, 0, 1⟩
  nqty := 2
  permute := permute
  packflag := packflag
  collective := collective
  inst := 0
  ai := ai
  ao := ao

/-- Example memory, arrays and buffers of exactly 8 elements. -/
def demoMem (r : Nat) : LMem Int where
  ub n := Mem.ofFn 8 fun x => 1000 * r + 100 * n + x
  sb := Mem.ofFn 8 fun _ => 0
  rb := Mem.ofFn 8 fun _ => 0

theorem demo_tiles_in (p f : Int) (c : Bool) (ai ao : Nat) :
    Tiles3 2 (demo p f c ai ao).ins 2 2 2 where
  inside := by intro a ha i j k h; simp only [demo, Box3.Has] at h; omega
  owner := by
    intro i j k hi hj hk
    exact ⟨k.toNat, by omega, by simp only [demo, Box3.Has]; omega⟩
  disjoint := by intro a _ b _ i j k h1 h2; simp only [demo, Box3.Has] at h1 h2; omega

theorem demo_tiles_out (p f : Int) (c : Bool) (ai ao : Nat) :
    Tiles3 2 (demo p f c ai ao).outs 2 2 2 where
  inside := by intro a ha i j k h; simp only [demo, Box3.Has] at h; omega
  owner := by
    intro i j k hi hj hk
    exact ⟨i.toNat, by omega, by simp only [demo, Box3.Has]; omega⟩
  disjoint := by intro a _ b _ i j k h1 h2; simp only [demo, Box3.Has] at h1 h2; omega

theorem demo_valid (p f : Int) (c : Bool) (ai ao : Nat) (hp : p = 0 ∨ p = 1 ∨ p = 2)
    (hf : f = 0 ∨ f = 1 ∨ f = 2) : (demo p f c ai ao).Valid 2 where
  disjoint := (demo_tiles_in p f c ai ao).disjoint
  nqty := by show (1 : Int) ≤ 2; decide
  permute := hp
  packflag := hf

/-- Setup succeeds. -/
theorem setup3_exists (P : Nat) (c : Call3) (hq : 1 ≤ c.nqty)
    (hp : c.permute = 0 ∨ c.permute = 1 ∨ c.permute = 2)
    (hf : c.packflag = 0 ∨ c.packflag = 1 ∨ c.packflag = 2) :
    ∃ obj : Nat → RemapObj α PackPlan3, c.Setup P obj := by
  have h : ∀ r < P, ∃ o : RemapObj α PackPlan3,
      remapSetup dim3 P r c.ins c.outs c.nqty c.permute c.packflag c.collective = some o :=
    fun r hr => remapSetup_some (geom3 (P := P) (ins := c.ins) (outs := c.outs) hq hp hf) _ hr
  have : Nonempty (RemapObj α PackPlan3) :=
    ⟨⟨[], [], 0, 0, false, none, none, none, 0, 0⟩⟩
  choose! obj hobj using h
  exact ⟨obj, hobj⟩

theorem demo_fits (p : Int) (c : Bool) (ai ao : Nat) (hp : p = 0 ∨ p = 1 ∨ p = 2)
    {obj : Nat → RemapObj Int PackPlan3}
    (hs : (demo p 2 c ai ao).Setup 2 obj) : (demo p 2 c ai ao).Fits 2 obj demoMem := by
  have hsz : ∀ r < 2, (obj r).sendsize ≤ 8 ∧ (obj r).recvsize ≤ 8 := by
    intro r hr
    have h := hs r hr
    have h' : ∀ r < 2, ((remapSetup (α := Int) dim3 2 r (fun r => ⟨0, 1, 0, 1, r, r⟩)
        (fun r => ⟨r, r, 0, 1, 0, 1⟩) 2 p 2 c).map fun o =>
          decide (o.sendsize ≤ 8 ∧ o.recvsize ≤ 8)) = some true := by
      rcases hp with rfl | rfl | rfl <;> cases c <;> decide
    have h2 := h' r hr
    rw [show (demo p 2 c ai ao).nqty = 2 from rfl, show (demo p 2 c ai ao).permute = p from rfl,
      show (demo p 2 c ai ao).packflag = 2 from rfl,
      show (demo p 2 c ai ao).collective = c from rfl,
      show (demo p 2 c ai ao).ins = fun r => ⟨0, 1, 0, 1, r, r⟩ from rfl,
      show (demo p 2 c ai ao).outs = fun r => ⟨r, r, 0, 1, 0, 1⟩ from rfl] at h
    rw [h] at h2
    simpa using h2
  have hacc : ∀ (f : Int → Int) (n : Int), n ≤ 8 → accessible (Mem.ofFn 8 f) 0 n := by
    intro f n hn a h1 h2
    simp only [Mem.ofFn]
    rw [if_pos (by omega)]; rfl
  constructor
  · intro r _
    apply hacc
    simp only [demo, Box3.count, Box3.isize, Box3.jsize, Box3.ksize]
    simp
  · intro r _
    apply hacc
    simp only [demo, Box3.count, Box3.isize, Box3.jsize, Box3.ksize]
    simp
  · intro r hr; exact hacc _ _ (hsz r hr).1
  · intro r hr; exact hacc _ _ (hsz r hr).2

/-! ## C01 -/

/-- **C01.**  If the input boxes and the output boxes of all ranks tile the same grid, then every
execution of the remap on all ranks ends, and in the end every rank holds, for every point of its
output box, the value that the owner of the point had; storage order according to `permute`. -/
theorem C01_remap3d_delivers (e : Bool) {P : Nat} (c : Call3) (nfast nmid nslow : Int)
    (hin : Tiles3 P c.ins nfast nmid nslow) (hout : Tiles3 P c.outs nfast nmid nslow)
    (hq : 1 ≤ c.nqty) (hp : c.permute = 0 ∨ c.permute = 1 ∨ c.permute = 2)
    (hf : c.packflag = 0 ∨ c.packflag = 1 ∨ c.packflag = 2)
    (obj : Nat → RemapObj α PackPlan3) (hs : c.Setup P obj)
    (m : Nat → LMem α) (hm : c.Fits P obj m) :
    ∃ m', Terminates e P (c.prog obj) m m' ∧
      ∀ b < P, ∀ i j k q, (c.outs b).Has i j k → (0 ≤ q ∧ q < c.nqty) →
        ∃ a < P, (c.ins a).Has i j k ∧
          ((m a).ub c.ai (addr3 0 (c.ins a) c.nqty i j k q)).isSome ∧
          (m' b).ub c.ao (addr3 c.permute (c.outs b) c.nqty i j k q) =
            (m a).ub c.ai (addr3 0 (c.ins a) c.nqty i j k q) := by
  have hv : c.Valid P := ⟨hin.disjoint, hq, hp, hf⟩
  obtain ⟨m', h1, h2, _⟩ := remap3_main e hv hs hm
  refine ⟨m', h1.terminates, ?_⟩
  intro b hb i j k q hbx hq'
  obtain ⟨hi, hj, hk⟩ := hout.inside b hb i j k hbx
  obtain ⟨a, ha, hax⟩ := hin.owner i j k hi hj hk
  refine ⟨a, ha, hax, ?_, h2.moved a ha b hb i j k q hax hbx hq'⟩
  have hr := addr3_range (permute := 0) hax hq'
  rw [← Box3.count_of_has hax] at hr
  exact hm.inp a ha _ hr.1 (by simpa using hr.2)

example : ∃ (obj : Nat → RemapObj Int PackPlan3) (m' : Nat → LMem Int),
    Terminates false 2 ((demo 1 2 true 0 1).prog obj) demoMem m' ∧
    -- point (1,0,1) of rank 1, first value: it was element 2 of rank 1's input
    (m' 1).ub 1 4 = some 1002 := by
  obtain ⟨obj, hs⟩ := setup3_exists (α := Int) 2 (demo 1 2 true 0 1) (by decide)
    (Or.inr (Or.inl rfl)) (Or.inr (Or.inr rfl))
  obtain ⟨m', h1, h2⟩ := C01_remap3d_delivers false (demo 1 2 true 0 1) 2 2 2
    (demo_tiles_in _ _ _ _ _) (demo_tiles_out _ _ _ _ _) (by decide) (Or.inr (Or.inl rfl))
    (Or.inr (Or.inr rfl)) obj hs demoMem (demo_fits 1 true 0 1 (Or.inr (Or.inl rfl)) hs)
  obtain ⟨a, ha, hax, _, he⟩ := h2 1 (by decide) 1 0 1 0 (by decide) (by decide)
  have : a = 1 := by simp only [demo, Box3.Has] at hax; omega
  subst this
  exact ⟨obj, m', h1, he⟩

/-! ## C02 -/

/-- **C02.**  `in == out`: for every point of the output box the value is the one that the call with
two distinct arrays produces.  `c` is the call in place (array `c.ai = c.ao`), `c'` the same call with
distinct arrays; the input arrays agree on the input boxes. -/
theorem C02_remap3d_in_place (e e' : Bool) {P : Nat} (c c' : Call3) (nfast nmid nslow : Int)
    (hin : Tiles3 P c.ins nfast nmid nslow) (hout : Tiles3 P c.outs nfast nmid nslow)
    (hv : c.Valid P) (hplace : c.ai = c.ao) (hdist : c'.ai ≠ c'.ao)
    (hc : c' = { c with ai := c'.ai, ao := c'.ao })
    (obj : Nat → RemapObj α PackPlan3) (hs : c.Setup P obj)
    (m m2 : Nat → LMem α) (hm : c.Fits P obj m) (hm2 : c'.Fits P obj m2)
    (hsame : ∀ r < P, ∀ x, 0 ≤ x → x < c.nqty * (c.ins r).count →
      (m2 r).ub c'.ai x = (m r).ub c.ai x) :
    ∃ m' m2', Terminates e P (c.prog obj) m m' ∧ Terminates e' P (c'.prog obj) m2 m2' ∧
      ∀ b < P, ∀ x, 0 ≤ x → x < c.nqty * (c.outs b).count →
        (m' b).ub c.ao x = (m2' b).ub c'.ao x ∧ ((m' b).ub c.ao x).isSome := by
  have hs' : c'.Setup P obj := by rw [hc]; exact hs
  have hv' : c'.Valid P := by rw [hc]; exact ⟨hv.disjoint, hv.nqty, hv.permute, hv.packflag⟩
  obtain ⟨m', h1, h2, hd1⟩ := remap3_main e hv hs hm
  obtain ⟨m2', h3, h4, _⟩ := remap3_main e' hv' hs' hm2
  refine ⟨m', m2', h1.terminates, h3.terminates, ?_⟩
  intro b hb x hx0 hx1
  refine ⟨?_, by rw [(hd1 b hb).1]; exact hm.out b hb x hx0 (by simpa using hx1)⟩
  have hpos : 0 < (c.outs b).isize ∧ 0 < (c.outs b).jsize ∧ 0 < (c.outs b).ksize := by
    unfold Box3.count at hx1
    refine ⟨?_, ?_, ?_⟩
    · by_contra hn
      rw [max_eq_right (a := (c.outs b).isize) (by omega)] at hx1
      simp at hx1; omega
    · by_contra hn
      rw [max_eq_right (a := (c.outs b).jsize) (by omega)] at hx1
      simp at hx1; omega
    · by_contra hn
      rw [max_eq_right (a := (c.outs b).ksize) (by omega)] at hx1
      simp at hx1; omega
  have hcnt : (c.outs b).count = (c.outs b).vol := by
    unfold Box3.count Box3.vol
    rw [max_eq_left hpos.1.le, max_eq_left hpos.2.1.le, max_eq_left hpos.2.2.le]
  rw [hcnt] at hx1
  obtain ⟨i, j, k, q, hbx, hq, rfl⟩ := addr3_surj (permute := c.permute) hpos.1 hpos.2.1 hpos.2.2
    (by have := hv.nqty; omega) ⟨hx0, hx1⟩
  obtain ⟨hi, hj, hk⟩ := hout.inside b hb i j k hbx
  obtain ⟨a, ha, hax⟩ := hin.owner i j k hi hj hk
  have r1 := h2.moved a ha b hb i j k q hax hbx hq
  have r2 := h4.moved a ha b hb i j k q (by rw [hc]; exact hax) (by rw [hc]; exact hbx)
    (by rw [hc]; exact hq)
  have e1 : c'.permute = c.permute := by rw [hc]
  have e2 : c'.outs = c.outs := by rw [hc]
  have e3 : c'.ins = c.ins := by rw [hc]
  have e4 : c'.nqty = c.nqty := by rw [hc]
  simp only [e1, e2, e3, e4] at r2
  rw [r1, r2]
  have hr := addr3_range (permute := 0) hax hq
  rw [← Box3.count_of_has hax] at hr
  exact (hsame a ha _ hr.1 hr.2).symm

example : ∃ (obj : Nat → RemapObj Int PackPlan3) (m' m2' : Nat → LMem Int),
    Terminates false 2 ((demo 1 2 false 0 0).prog obj) demoMem m' ∧
    Terminates false 2 ((demo 1 2 false 0 1).prog obj) demoMem m2' ∧
    (m' 1).ub 0 4 = (m2' 1).ub 1 4 := by
  obtain ⟨obj, hs⟩ := setup3_exists (α := Int) 2 (demo 1 2 false 0 0) (by decide)
    (Or.inr (Or.inl rfl)) (Or.inr (Or.inr rfl))
  obtain ⟨m', m2', h1, h2, h3⟩ := C02_remap3d_in_place false false (demo 1 2 false 0 0)
    (demo 1 2 false 0 1) 2 2 2 (demo_tiles_in _ _ _ _ _) (demo_tiles_out _ _ _ _ _)
    (demo_valid _ _ _ _ _ (Or.inr (Or.inl rfl)) (Or.inr (Or.inr rfl))) rfl (by decide) rfl obj hs
    demoMem demoMem (demo_fits 1 false 0 0 (Or.inr (Or.inl rfl)) hs)
    (demo_fits 1 false 0 1 (Or.inr (Or.inl rfl)) hs) (fun _ _ _ _ _ => rfl)
  exact ⟨obj, m', m2', h1, h2, (h3 1 (by decide) 4 (by decide) (by decide)).1⟩

/-! ## C03 -/

/-- Only the arrays of the call exist, with exactly the promised sizes: `in` of `nqty*insize`, `out`
of `nqty*outsize` (the larger of both if they are the same array), the buffers of the sizes returned
by `setup`.  Everything else is inaccessible. -/
structure ExactMem3 (P : Nat) (c : Call3) (obj : Nat → RemapObj α PackPlan3) (m : Nat → LMem α) :
    Prop where
  ub : ∀ r < P, ∀ n x, ((m r).ub n x).isSome ↔ 0 ≤ x ∧
    ((n = c.ai ∧ x < c.nqty * (c.ins r).count) ∨ (n = c.ao ∧ x < c.nqty * (c.outs r).count))
  sb : ∀ r < P, ∀ x, ((m r).sb x).isSome ↔ 0 ≤ x ∧ x < (obj r).sendsize
  rb : ∀ r < P, ∀ x, ((m r).rb x).isSome ↔ 0 ≤ x ∧ x < (obj r).recvsize

/-- **C03.**  With arrays and buffers of exactly the promised sizes no rank ever accesses anything
else, in any execution: no reachable state `Fails` (an access outside makes the rank fail), the
remap completes, and the same locations are accessible afterwards. -/
theorem C03_remap3d_in_bounds (e : Bool) {P : Nat} (c : Call3) (hv : c.Valid P)
    (obj : Nat → RemapObj α PackPlan3) (hs : c.Setup P obj)
    (m : Nat → LMem α) (hm : ExactMem3 P c obj m) :
    (∀ k cfg, Run e k (initCfg P (c.prog obj) m) cfg → ∀ r, ¬ Fails cfg r) ∧
    ∃ m', Terminates e P (c.prog obj) m m' ∧ ExactMem3 P c obj m' := by
  have hf : c.Fits P obj m :=
    ⟨fun r hr x h0 h1 => (hm.ub r hr _ x).mpr ⟨h0, Or.inl ⟨rfl, by simpa using h1⟩⟩,
     fun r hr x h0 h1 => (hm.ub r hr _ x).mpr ⟨h0, Or.inr ⟨rfl, by simpa using h1⟩⟩,
     fun r hr x h0 h1 => (hm.sb r hr x).mpr ⟨h0, by simpa using h1⟩,
     fun r hr x h0 h1 => (hm.rb r hr x).mpr ⟨h0, by simpa using h1⟩⟩
  obtain ⟨m', h1, _, h3⟩ := remap3_main e hv hs hf
  refine ⟨h1.terminates.safe, m', h1.terminates, ?_, ?_, ?_⟩
  · intro r hr n x; rw [(h3 r hr).1]; exact hm.ub r hr n x
  · intro r hr x; rw [(h3 r hr).2.1]; exact hm.sb r hr x
  · intro r hr x; rw [(h3 r hr).2.2]; exact hm.rb r hr x

/-- Memory of exactly the required size. -/
def tightMem (c : Call3) (obj : Nat → RemapObj α PackPlan3) (v : α) (r : Nat) : LMem α where
  ub n x := if 0 ≤ x ∧ ((n = c.ai ∧ x < c.nqty * (c.ins r).count) ∨
    (n = c.ao ∧ x < c.nqty * (c.outs r).count)) then some v else none
  sb x := if 0 ≤ x ∧ x < (obj r).sendsize then some v else none
  rb x := if 0 ≤ x ∧ x < (obj r).recvsize then some v else none

theorem tightMem_exact (P : Nat) (c : Call3) (obj : Nat → RemapObj α PackPlan3) (v : α) :
    ExactMem3 P c obj (tightMem c obj v) := by
  constructor
  · intro r _ n x; simp only [tightMem]; split_ifs with h <;> simp [h]
  · intro r _ x; simp only [tightMem]; split_ifs with h <;> simp [h]
  · intro r _ x; simp only [tightMem]; split_ifs with h <;> simp [h]

example : ∃ (obj : Nat → RemapObj Int PackPlan3) (m' : Nat → LMem Int),
    Terminates false 2 ((demo 2 0 true 0 1).prog obj) (tightMem (demo 2 0 true 0 1) obj 7) m' := by
  obtain ⟨obj, hs⟩ := setup3_exists (α := Int) 2 (demo 2 0 true 0 1) (by decide)
    (Or.inr (Or.inr rfl)) (Or.inl rfl)
  obtain ⟨_, m', h, _⟩ := C03_remap3d_in_bounds false (demo 2 0 true 0 1)
    (demo_valid _ _ _ _ _ (Or.inr (Or.inr rfl)) (Or.inl rfl)) obj hs _
    (tightMem_exact 2 _ obj 7)
  exact ⟨obj, m', h⟩

/-! ## C04 -/

/-- **C04.**  Any sequence of remaps, executed by all ranks, in synchronous mode (`MPI_Send` returns
only after the matching receive has been posted): there is a number `n` such that every execution
has at most `n` steps, and every execution that has been scheduled in any way so far can be
continued until all ranks have returned from all calls. -/
theorem C04_remap3d_no_deadlock {P : Nat} (l : List (Call3 × (Nat → RemapObj α PackPlan3)))
    (m : Nat → LMem α) (hv : ∀ c ∈ l, c.1.Valid P) (hs : ∀ c ∈ l, c.1.Setup P c.2)
    (hf : ∀ c ∈ l, c.1.Fits P c.2 m) :
    ∃ n, ∀ k cfg, Run false k (initCfg P (seqProg3 l) m) cfg →
      k ≤ n ∧ (∃ cfg', Run false (n - k) cfg cfg' ∧ Final cfg') ∧
      ((∀ r ch, step false cfg r ch = none) → Final cfg) := by
  obtain ⟨m', h, _⟩ := remapSeq3_main false l m hv hs hf
  obtain ⟨n, hn⟩ := h.terminates.bounded
  refine ⟨n, fun k cfg hr => ⟨(hn k cfg hr).1, ⟨_, (hn k cfg hr).2, finalCfg_final P m m'⟩, ?_⟩⟩
  intro hst
  rw [h.terminates.stuck k cfg hr hst]
  exact finalCfg_final P m m'

example : ∃ (obj obj' : Nat → RemapObj Int PackPlan3), ∃ n, ∀ k cfg,
    Run false k (initCfg 2 (seqProg3 [(demo 1 2 false 0 1, obj), (demo 2 2 true 1 0, obj')]) demoMem) cfg →
      k ≤ n ∧ ∃ cfg', Run false (n - k) cfg cfg' ∧ Final cfg' := by
  obtain ⟨obj, hs⟩ := setup3_exists (α := Int) 2 (demo 1 2 false 0 1) (by decide)
    (Or.inr (Or.inl rfl)) (Or.inr (Or.inr rfl))
  obtain ⟨obj', hs'⟩ := setup3_exists (α := Int) 2 (demo 2 2 true 1 0) (by decide)
    (Or.inr (Or.inr rfl)) (Or.inr (Or.inr rfl))
  obtain ⟨n, hn⟩ := C04_remap3d_no_deadlock
    [(demo 1 2 false 0 1, obj), (demo 2 2 true 1 0, obj')] demoMem
    (by
      intro c hc
      simp only [List.mem_cons, List.not_mem_nil, or_false] at hc
      rcases hc with rfl | rfl
      · exact demo_valid _ _ _ _ _ (Or.inr (Or.inl rfl)) (Or.inr (Or.inr rfl))
      · exact demo_valid _ _ _ _ _ (Or.inr (Or.inr rfl)) (Or.inr (Or.inr rfl)))
    (by
      intro c hc
      simp only [List.mem_cons, List.not_mem_nil, or_false] at hc
      rcases hc with rfl | rfl
      · exact hs
      · exact hs')
    (by
      intro c hc
      simp only [List.mem_cons, List.not_mem_nil, or_false] at hc
      rcases hc with rfl | rfl
      · exact demo_fits 1 false 0 1 (Or.inr (Or.inl rfl)) hs
      · exact demo_fits 2 true 1 0 (Or.inr (Or.inr rfl)) hs')
  exact ⟨obj, obj', n, fun k cfg h => ⟨(hn k cfg h).1, (hn k cfg h).2.1⟩⟩

/-! ## C05 -/

/-- **C05.**  Two executions of the same sequence of remaps from the same memories, with different
schedules and different choices of `MPI_Waitany`, even one with and one without buffering of sends:
when both have ended (no rank can move), all memories of all ranks are identical. -/
theorem C05_remap3d_schedule_independent {P : Nat}
    (l : List (Call3 × (Nat → RemapObj α PackPlan3)))
    (m : Nat → LMem α) (hv : ∀ c ∈ l, c.1.Valid P) (hs : ∀ c ∈ l, c.1.Setup P c.2)
    (hf : ∀ c ∈ l, c.1.Fits P c.2 m) (e1 e2 : Bool) (k1 k2 : Nat) (cfg1 cfg2 : Config α)
    (h1 : Run e1 k1 (initCfg P (seqProg3 l) m) cfg1) (s1 : ∀ r ch, step e1 cfg1 r ch = none)
    (h2 : Run e2 k2 (initCfg P (seqProg3 l) m) cfg2) (s2 : ∀ r ch, step e2 cfg2 r ch = none) :
    cfg1 = cfg2 ∧ Final cfg1 := by
  obtain ⟨m1, t1, _⟩ := remapSeq3_main e1 l m hv hs hf
  obtain ⟨m2, t2, _⟩ := remapSeq3_main e2 l m hv hs hf
  obtain ⟨mf, tf, _⟩ := remapSeq3_main false l m hv hs hf
  -- a synchronous execution is also an execution with buffering
  have mono : ∀ (e : Bool) n (a b : Config α), Run false n a b → Run e n a b := by
    intro e n a b h
    induction h with
    | refl => exact Run.refl _
    | @step n c c' c'' r ch hst _ ih =>
      refine Run.step r ch ?_ ih
      rw [step_eq_eff] at hst ⊢
      obtain ⟨A, ha, hA⟩ := Option.bind_eq_some_iff.mp hst
      rw [ha, Option.bind_some]
      cases A with
      | tau => exact hA
      | push => exact hA
      | pop => exact hA
      | sync d st =>
        obtain ⟨hc, rfl⟩ := eff_sync_of hA
        simp only [eff]
        rw [if_pos]
        rcases hc with hc | hc
        · cases hc
        · exact Or.inr hc
  have key : ∀ (e : Bool) (m' : Nat → LMem α), Terminates e P (seqProg3 l) m m' →
      finalCfg P m m' = finalCfg P m mf := by
    intro e m' t
    obtain ⟨n, hn⟩ := tf.terminates.bounded
    have hrun := (hn 0 _ (Run.refl _)).2
    exact (t.stuck _ _ (mono e _ _ _ hrun)
      (fun r ch => (finalCfg_final P m mf).no_step r ch)).symm
  have c1 := t1.terminates.stuck k1 cfg1 h1 s1
  have c2 := t2.terminates.stuck k2 cfg2 h2 s2
  refine ⟨?_, by rw [c1]; exact finalCfg_final P m m1⟩
  rw [c1, c2, key e1 m1 t1.terminates, key e2 m2 t2.terminates]

example : ∃ (obj : Nat → RemapObj Int PackPlan3), ∀ k1 k2 cfg1 cfg2,
    Run false k1 (initCfg 2 (seqProg3 [(demo 1 2 false 0 1, obj)]) demoMem) cfg1 →
    (∀ r ch, step false cfg1 r ch = none) →
    Run true k2 (initCfg 2 (seqProg3 [(demo 1 2 false 0 1, obj)]) demoMem) cfg2 →
    (∀ r ch, step true cfg2 r ch = none) → cfg1 = cfg2 := by
  obtain ⟨obj, hs⟩ := setup3_exists (α := Int) 2 (demo 1 2 false 0 1) (by decide)
    (Or.inr (Or.inl rfl)) (Or.inr (Or.inr rfl))
  refine ⟨obj, fun k1 k2 cfg1 cfg2 h1 s1 h2 s2 => (C05_remap3d_schedule_independent
    [(demo 1 2 false 0 1, obj)] demoMem ?_ ?_ ?_ false true k1 k2 cfg1 cfg2 h1 s1 h2 s2).1⟩
  · intro c hc
    rw [List.mem_singleton] at hc; subst hc
    exact demo_valid _ _ _ _ _ (Or.inr (Or.inl rfl)) (Or.inr (Or.inr rfl))
  · intro c hc
    rw [List.mem_singleton] at hc; subst hc
    exact hs
  · intro c hc
    rw [List.mem_singleton] at hc; subst hc
    exact demo_fits 1 false 0 1 (Or.inr (Or.inl rfl)) hs

/-! ## C06 -/

/-- Rank `a` owns an input point that rank `b` owns in the output layout. -/
def Call3.Shares (c : Call3) (a b : Nat) : Prop :=
  ∃ i j k, (c.ins a).Has i j k ∧ (c.outs b).Has i j k

theorem src3_ne_nil {c : Call3} (hq : 1 ≤ c.nqty) (a b : Nat) :
    src3 c.ins c.outs c.nqty a b ≠ [] ↔ c.Shares a b := by
  constructor
  · intro h
    obtain ⟨x, hx⟩ := List.exists_mem_of_ne_nil _ h
    obtain ⟨⟨i, j, k, q⟩, h1, _⟩ := List.mem_map.mp hx
    rw [mem_boxPts, inter3_has] at h1
    exact ⟨i, j, k, h1.1⟩
  · rintro ⟨i, j, k, h⟩ h0
    have : (i, j, k, (0 : Int)) ∈ boxPts (inter3 (c.ins a) (c.outs b)) c.nqty := by
      rw [mem_boxPts, inter3_has]; exact ⟨h, by omega⟩
    have := List.mem_map_of_mem
      (f := fun p : Int × Int × Int × Int => addr3 0 (c.ins a) c.nqty p.1 p.2.1 p.2.2.1 p.2.2.2) this
    rw [show List.map _ _ = src3 c.ins c.outs c.nqty a b from rfl, h0] at this
    cases this

/-- **C06.**  For arbitrary boxes on all ranks: rank `a` plans a message of `n` scalars to rank `b`
iff rank `b` plans to receive `n` scalars from `a`, and this happens iff `a` owns data for `b`; at
most one message per peer; no empty messages.  `sends`/`recvs` include the part a rank keeps for
itself; `p2pSends`/`p2pRecvs` are the `MPI_Send`s and `MPI_Irecv`s of point-to-point mode, which are
exactly those with another rank. -/
theorem C06_remap3d_matching {P : Nat} (c : Call3) (hq : 1 ≤ c.nqty)
    (hp : c.permute = 0 ∨ c.permute = 1 ∨ c.permute = 2)
    (hf : c.packflag = 0 ∨ c.packflag = 1 ∨ c.packflag = 2)
    (obj : Nat → RemapObj α PackPlan3) (hs : c.Setup P obj) :
    (∀ a < P, ∀ b < P, ∀ n,
      (∃ s ∈ (obj a).sends, s.proc = b ∧ s.size = n) ↔ (∃ t ∈ (obj b).recvs, t.proc = a ∧ t.size = n)) ∧
    (∀ a < P, ∀ b < P, (∃ s ∈ (obj a).sends, s.proc = b) ↔ c.Shares a b) ∧
    (∀ a < P, ((obj a).sends.map SEnt.proc).Nodup ∧ ((obj a).recvs.map REnt.proc).Nodup ∧
      (∀ s ∈ (obj a).sends, s.proc < P ∧ 0 < s.size) ∧
      (∀ t ∈ (obj a).recvs, t.proc < P ∧ 0 < t.size)) ∧
    (c.collective = false → ∀ a < P, ∀ b < P, ∀ n ai ao,
      ((∃ s ∈ (obj a).p2pSends ai, s.dst = b ∧ s.size = n) ↔
        (a ≠ b ∧ ∃ s ∈ (obj a).sends, s.proc = b ∧ s.size = n)) ∧
      ((∃ t ∈ (obj b).p2pRecvs ao, t.src = a ∧ t.size = n) ↔
        (a ≠ b ∧ ∃ t ∈ (obj b).recvs, t.proc = a ∧ t.size = n))) := by
  have G := geom3 (α := α) (P := P) (ins := c.ins) (outs := c.outs) hq hp hf
  have hlen : ∀ a b, src3 c.ins c.outs c.nqty a b ≠ [] →
      0 < ((src3 c.ins c.outs c.nqty a b).length : Int) := by
    intro a b h
    have := List.length_pos_of_ne_nil h
    omega
  refine ⟨?_, ?_, ?_, ?_⟩
  · intro a ha b hb n
    rw [(setup_matching G hs ha hb n).1, (setup_matching G hs ha hb n).2]
  · intro a ha b hb
    rw [← src3_ne_nil hq]
    constructor
    · rintro ⟨s, h1, h2⟩
      exact ((setup_matching G hs ha hb s.size).1.mp ⟨s, h1, h2, rfl⟩).1
    · intro h
      obtain ⟨s, h1, h2, _⟩ := (setup_matching G hs ha hb _).1.mpr ⟨h, rfl⟩
      exact ⟨s, h1, h2⟩
  · intro a ha
    obtain ⟨h1, h2⟩ := setup_procs_nodup G ha (hs a ha)
    refine ⟨h1, h2, ?_, ?_⟩
    · intro s hs'
      rw [(setup_lists (hs a ha)).1] at hs'
      obtain ⟨h3, h4, h5, _⟩ := sEnts_mem G ha _ (procLoop_lt P a ha) hs'
      exact ⟨procLoop_lt P a ha _ h3, by rw [h5]; exact hlen _ _ h4⟩
    · intro t ht
      rw [(setup_lists (hs a ha)).2] at ht
      obtain ⟨h3, h4, h5, _⟩ := rEnts_mem G ha _ (procLoop_lt P a ha) 0 ht
      have := procLoop_lt P a ha _ h3
      exact ⟨this, by rw [h5, G.len _ this _ ha]; exact hlen _ _ h4⟩
  · intro hc a ha b hb n ai ao
    have hs' : ∀ r < P, remapSetup dim3 P r c.ins c.outs c.nqty c.permute c.packflag false =
        some (obj r) := by rw [← hc]; exact hs
    have h1 := setup_matching_p2p G hs' ha hb n
    have h2 := setup_matching G hs' ha hb n
    rw [h2.1, h2.2]
    refine ⟨Iff.trans ?_ h1.1, Iff.trans ?_ h1.2⟩ <;>
      simp [RemapObj.p2pSends, RemapObj.p2pRecvs, ← List.map_take]

example : ∃ (obj : Nat → RemapObj Int PackPlan3),
    (∃ s ∈ (obj 0).sends, s.proc = 1 ∧ s.size = 4) ∧ (∃ t ∈ (obj 1).recvs, t.proc = 0 ∧ t.size = 4) := by
  obtain ⟨obj, hs⟩ := setup3_exists (α := Int) 2 (demo 1 2 false 0 1) (by decide)
    (Or.inr (Or.inl rfl)) (Or.inr (Or.inr rfl))
  have h := C06_remap3d_matching (demo 1 2 false 0 1) (by decide) (Or.inr (Or.inl rfl))
    (Or.inr (Or.inr rfl)) obj hs
  have h0 : (∃ s ∈ (obj 0).sends, s.proc = 1 ∧ s.size = 4) := by
    have h1 := hs 0 (by decide)
    have h2 : ((remapSetup (α := Int) dim3 2 0 (fun r => ⟨0, 1, 0, 1, r, r⟩)
        (fun r => ⟨r, r, 0, 1, 0, 1⟩) 2 1 2 false).map fun o =>
          (o.sends.map fun s => (s.proc, s.size))) = some [(1, 4), (0, 4)] := by decide
    simp only [demo] at h1
    rw [h1, Option.map_some, Option.some.injEq] at h2
    have : ((1 : Nat), (4 : Int)) ∈ (obj 0).sends.map fun s => (s.proc, s.size) := by rw [h2]; simp
    obtain ⟨s, h3, h4⟩ := List.mem_map.mp this
    simp only [Prod.mk.injEq] at h4
    exact ⟨s, h3, h4⟩
  exact ⟨obj, h0, (h.1 0 (by decide) 1 (by decide) 4).mp h0⟩

/-! ## C07 -/

/-- The output does not depend on the settings `collective`, `packflag`. -/
theorem remap3_settings (e1 e2 : Bool) {P : Nat} (c1 c2 : Call3)
    (hc : c2 = { c1 with collective := c2.collective, packflag := c2.packflag, inst := c2.inst })
    (hv1 : c1.Valid P) (hv2 : c2.Valid P) (obj1 obj2 : Nat → RemapObj α PackPlan3)
    (hs1 : c1.Setup P obj1) (hs2 : c2.Setup P obj2) (m1 m2 : Nat → LMem α)
    (hm1 : c1.Fits P obj1 m1) (hm2 : c2.Fits P obj2 m2) (hu : ∀ r < P, (m1 r).ub = (m2 r).ub) :
    ∃ m1' m2', Terminates e1 P (c1.prog obj1) m1 m1' ∧ Terminates e2 P (c2.prog obj2) m2 m2' ∧
      ∀ r < P, (m1' r).ub = (m2' r).ub := by
  obtain ⟨m1', a1, a2⟩ := remap3_stage e1 hv1 hs1 hm1
  obtain ⟨m2', b1, b2⟩ := remap3_stage e2 hv2 hs2 hm2
  refine ⟨m1', m2', a1.terminates, b1.terminates, fun r hr => ?_⟩
  rw [(a2 r hr).1, (b2 r hr).1, hu r hr]
  have e1 : c2.permute = c1.permute := by rw [hc]
  have e2 : c2.outs = c1.outs := by rw [hc]
  have e3 : c2.ins = c1.ins := by rw [hc]
  have e4 : c2.nqty = c1.nqty := by rw [hc]
  have e5 : c2.ai = c1.ai := by rw [hc]
  have e6 : c2.ao = c1.ao := by rw [hc]
  rw [e1, e2, e3, e4, e5, e6]
  congr 1
  simp only [deliver, hu r hr]
  congr 1
  apply List.flatMap_congr
  intro a ha
  simp only [msg, hu a (List.mem_range.mp ha)]

/-- **C07.**  Point-to-point and collective mode leave exactly the same user arrays (all of them,
including everything outside the output box). -/
theorem C07_remap3d_modes_agree (e1 e2 : Bool) {P : Nat} (c : Call3) (hv : c.Valid P)
    (obj1 obj2 : Nat → RemapObj α PackPlan3)
    (hs1 : { c with collective := false }.Setup P obj1)
    (hs2 : { c with collective := true }.Setup P obj2)
    (m1 m2 : Nat → LMem α) (hm1 : { c with collective := false }.Fits P obj1 m1)
    (hm2 : { c with collective := true }.Fits P obj2 m2) (hu : ∀ r < P, (m1 r).ub = (m2 r).ub) :
    ∃ m1' m2', Terminates e1 P ({ c with collective := false }.prog obj1) m1 m1' ∧
      Terminates e2 P ({ c with collective := true }.prog obj2) m2 m2' ∧
      ∀ r < P, (m1' r).ub = (m2' r).ub :=
  remap3_settings e1 e2 { c with collective := false } { c with collective := true } rfl
    ⟨hv.disjoint, hv.nqty, hv.permute, hv.packflag⟩ ⟨hv.disjoint, hv.nqty, hv.permute, hv.packflag⟩
    obj1 obj2 hs1 hs2 m1 m2 hm1 hm2 hu

example : ∃ (obj1 obj2 : Nat → RemapObj Int PackPlan3) (m1' m2' : Nat → LMem Int),
    Terminates false 2 ((demo 1 2 false 0 1).prog obj1) demoMem m1' ∧
    Terminates false 2 ((demo 1 2 true 0 1).prog obj2) demoMem m2' ∧
    ∀ r < 2, (m1' r).ub = (m2' r).ub := by
  obtain ⟨obj1, hs1⟩ := setup3_exists (α := Int) 2 (demo 1 2 false 0 1) (by decide)
    (Or.inr (Or.inl rfl)) (Or.inr (Or.inr rfl))
  obtain ⟨obj2, hs2⟩ := setup3_exists (α := Int) 2 (demo 1 2 true 0 1) (by decide)
    (Or.inr (Or.inl rfl)) (Or.inr (Or.inr rfl))
  obtain ⟨m1', m2', h⟩ := C07_remap3d_modes_agree false false (demo 1 2 true 0 1)
    (demo_valid _ _ _ _ _ (Or.inr (Or.inl rfl)) (Or.inr (Or.inr rfl))) obj1 obj2 hs1 hs2 demoMem demoMem
    (demo_fits 1 false 0 1 (Or.inr (Or.inl rfl)) hs1) (demo_fits 1 true 0 1 (Or.inr (Or.inl rfl)) hs2)
    (fun _ _ => rfl)
  exact ⟨obj1, obj2, m1', m2', h⟩

/-! ## C08 -/

/-- **C08, routines.**  The three variants of every pack and unpack routine do the same: same new
buffer, or all of them access memory they must not.  (`p.Ok`: non-negative sizes, positive strides.)
-/
theorem C08_pack3d_variants {f1 f2 : Int} (h1 : f1 = 0 ∨ f1 = 1 ∨ f1 = 2)
    (h2 : f2 = 0 ∨ f2 = 1 ∨ f2 = 2) {permute nqty : Int}
    (hp : permute = 0 ∨ permute = 1 ∨ permute = 2) :
    (∃ F1 F2, packSel3 (α := α) f1 = some F1 ∧ packSel3 (α := α) f2 = some F2 ∧
      ∀ data d buf b (p : PackPlan3), p.Ok → F1 data d buf b p = F2 data d buf b p) ∧
    (∃ F1 F2, unpackSel3 (α := α) f1 permute nqty = some F1 ∧
      unpackSel3 (α := α) f2 permute nqty = some F2 ∧
      ∀ buf b data d (p : PackPlan3), p.Ok → p.nqty = nqty →
        F1 buf b data d p = F2 buf b data d p) := by
  obtain ⟨F1, a1, a2⟩ := packSel3_eq (α := α) h1
  obtain ⟨F2, b1, b2⟩ := packSel3_eq (α := α) h2
  obtain ⟨U1, c1, c2⟩ := unpackSel3_eq (α := α) (nqty := nqty) h1 hp
  obtain ⟨U2, d1, d2⟩ := unpackSel3_eq (α := α) (nqty := nqty) h2 hp
  exact ⟨⟨F1, F2, a1, b1, fun data d buf b p hk => by rw [a2 _ _ _ _ p hk, b2 _ _ _ _ p hk]⟩,
    ⟨U1, U2, c1, d1, fun buf b data d p hk hn => by rw [c2 _ _ _ _ p hk hn, d2 _ _ _ _ p hk hn]⟩⟩

/-- The plan of a 2 x 3 x 2 box inside a 4 x 5 x 6 box. -/
example : (⟨2 * 2, 3, 2, 2 * 4, 2 * 5 * 4, 2⟩ : PackPlan3).Ok := by constructor <;> decide

/-- **C08, remap.**  `packflag` does not change any user array. -/
theorem C08_remap3d_packflag (e1 e2 : Bool) {P : Nat} (c : Call3) (f : Int)
    (hf : f = 0 ∨ f = 1 ∨ f = 2) (hv : c.Valid P)
    (obj1 obj2 : Nat → RemapObj α PackPlan3)
    (hs1 : c.Setup P obj1) (hs2 : { c with packflag := f }.Setup P obj2)
    (m : Nat → LMem α) (hm1 : c.Fits P obj1 m) (hm2 : { c with packflag := f }.Fits P obj2 m) :
    ∃ m1' m2', Terminates e1 P (c.prog obj1) m m1' ∧
      Terminates e2 P ({ c with packflag := f }.prog obj2) m m2' ∧
      ∀ r < P, (m1' r).ub = (m2' r).ub :=
  remap3_settings e1 e2 c { c with packflag := f } rfl hv
    ⟨hv.disjoint, hv.nqty, hv.permute, hf⟩ obj1 obj2 hs1 hs2 m m hm1 hm2 (fun _ _ => rfl)

/-! ## C09 -/

/-- Two ranks are linked when one of them has to send data to the other. -/
def Call3.Linked (P : Nat) (c : Call3) (a b : Nat) : Prop :=
  a < P ∧ b < P ∧ (c.Shares a b ∨ c.Shares b a)

theorem talk3_eq {c : Call3} (hq : 1 ≤ c.nqty) (P : Nat) :
    Talk P (src3 c.ins c.outs c.nqty) = c.Linked P := by
  funext a b
  simp only [Talk, Call3.Linked, ← src3_ne_nil hq]

/-- **C09.**  In collective mode, for arbitrary boxes: setup returns, and for every rank `r` the
group is the sorted list of exactly the ranks reachable from `r` through links.  Therefore two ranks
have identical groups or disjoint groups; a rank is a member of its own group iff it is linked to
somebody, otherwise its group is empty; and a rank that owns input data for a point of somebody's
output box is a member of its own group. -/
theorem C09_remap3d_groups {P : Nat} (c : Call3) (hq : 1 ≤ c.nqty)
    (hp : c.permute = 0 ∨ c.permute = 1 ∨ c.permute = 2)
    (hf : c.packflag = 0 ∨ c.packflag = 1 ∨ c.packflag = 2) (hc : c.collective = true) :
    ∃ (obj : Nat → RemapObj α PackPlan3) (ci : Nat → CollInfo), c.Setup P obj ∧
      ∀ r < P, (obj r).coll = some (ci r) ∧
        (∀ j, j ∈ (ci r).pgroup ↔ TransGen (c.Linked P) r j) ∧
        (ci r).pgroup.Pairwise (· < ·) ∧ (ci r).pgroup.length ≤ P ∧
        (∀ s < P, (ci r).pgroup = (ci s).pgroup ∨ ∀ j ∈ (ci r).pgroup, j ∉ (ci s).pgroup) ∧
        (r ∈ (ci r).pgroup ↔ ∃ s, c.Linked P r s) ∧
        ((¬ ∃ s, c.Linked P r s) → (ci r).pgroup = []) ∧
        (ci r).newcomm = decide (r ∈ (ci r).pgroup) := by
  have G := geom3 (α := α) (P := P) (ins := c.ins) (outs := c.outs) hq hp hf
  obtain ⟨obj, hs⟩ := setup3_exists (α := α) P c hq hp hf
  have hs' : ∀ r < P, remapSetup dim3 P r c.ins c.outs c.nqty c.permute c.packflag true =
        some (obj r) := by rw [← hc]; exact hs
  have hex : ∀ r < P, ∃ ci : CollInfo, (obj r).coll = some ci := by
    intro r hr
    obtain ⟨o, g, h1, h2⟩ := collObj_exists G hr
    rw [hs' r hr] at h1
    injection h1 with h1
    rw [h1]
    exact ⟨_, h2.coll⟩
  have : Nonempty CollInfo := ⟨⟨[], false, [], []⟩⟩
  choose! ci hci using hex
  refine ⟨obj, ci, hs, ?_⟩
  have O : ∀ r < P, CollObj dim3 P c.ins c.outs c.nqty c.permute c.packflag
      (src3 c.ins c.outs c.nqty) r (obj r) (ci r).pgroup :=
    fun r hr => setup_collObj G hr (hs' r hr) (hci r hr)
  intro r hr
  have hmem : ∀ j, j ∈ (ci r).pgroup ↔ TransGen (c.Linked P) r j := by
    intro j; rw [(O r hr).mem_group, talk3_eq hq]
  have hsort := group_sorted (O r hr)
  have hsym : ∀ a b, c.Linked P a b → c.Linked P b a := fun a b h => ⟨h.2.1, h.1, h.2.2.symm⟩
  have hself : r ∈ (ci r).pgroup ↔ ∃ s, c.Linked P r s := by
    rw [hmem]
    constructor
    · intro h
      obtain ⟨s, h1, _⟩ := TransGen.head'_iff.mp h
      exact ⟨s, h1⟩
    · rintro ⟨s, h⟩
      exact TransGen.tail (.single h) (hsym _ _ h)
  refine ⟨hci r hr, hmem, hsort, ?_, ?_, hself, ?_, ?_⟩
  · exact nodup_lt_length (hsort.imp (fun h => Nat.ne_of_lt h)) (O r hr).lt
  · intro s hs
    by_cases h : ∃ j ∈ (ci r).pgroup, j ∈ (ci s).pgroup
    · obtain ⟨j, h1, h2⟩ := h
      left
      have hj := (O r hr).lt j h1
      rw [(O r hr).same (O j hj) h1, (O s hs).same (O j hj) h2]
    · right
      intro j h1 h2
      exact h ⟨j, h1, h2⟩
  · intro h
    rw [List.eq_nil_iff_forall_not_mem]
    intro j hj
    rw [hmem] at hj
    obtain ⟨s, h1, _⟩ := TransGen.head'_iff.mp hj
    exact h ⟨s, h1⟩
  · have := (O r hr).coll
    rw [hci r hr] at this
    injection this with this
    rw [this]

/-- With tilings, a rank that owns any input point or any output point is a member of its own
group, and a rank that owns nothing has an empty group. -/
theorem C09_remap3d_own_group {P : Nat} (c : Call3) (nfast nmid nslow : Int)
    (hin : Tiles3 P c.ins nfast nmid nslow) (hout : Tiles3 P c.outs nfast nmid nslow) {r : Nat}
    (hr : r < P) :
    (∃ s, c.Linked P r s) ↔ ∃ i j k, (c.ins r).Has i j k ∨ (c.outs r).Has i j k := by
  constructor
  · rintro ⟨s, _, _, ⟨i, j, k, h, _⟩ | ⟨i, j, k, _, h⟩⟩
    · exact ⟨i, j, k, Or.inl h⟩
    · exact ⟨i, j, k, Or.inr h⟩
  · rintro ⟨i, j, k, h | h⟩
    · obtain ⟨h1, h2, h3⟩ := hin.inside r hr i j k h
      obtain ⟨s, hs, h4⟩ := hout.owner i j k h1 h2 h3
      exact ⟨s, hr, hs, Or.inl ⟨i, j, k, h, h4⟩⟩
    · obtain ⟨h1, h2, h3⟩ := hout.inside r hr i j k h
      obtain ⟨s, hs, h4⟩ := hin.owner i j k h1 h2 h3
      exact ⟨s, hr, hs, Or.inr ⟨i, j, k, h4, h⟩⟩

/-- 4 ranks, ranks 0 and 1 exchange data, rank 2 keeps its data, rank 3 owns nothing. -/
example : ((List.range 4).map fun r => ((remapSetup (α := Int) dim3 4 r
    (fun r => ([⟨0, 1, 0, 1, 0, 0⟩, ⟨0, 1, 0, 1, 1, 1⟩, ⟨0, 1, 0, 1, 2, 2⟩] : List Box3).getD r
      ⟨0, -1, 0, -1, 0, -1⟩)
    (fun r => ([⟨0, 0, 0, 1, 0, 1⟩, ⟨1, 1, 0, 1, 0, 1⟩, ⟨0, 1, 0, 1, 2, 2⟩] : List Box3).getD r
      ⟨0, -1, 0, -1, 0, -1⟩) 2 1 0 true).bind fun o => o.coll.map CollInfo.pgroup)) =
    [some [0, 1], some [0, 1], some [2], some []] := by decide

/-! ## C10 -/

/-- **C10.**  Arguments of `MPI_Alltoallv`, arbitrary boxes.  `AlltoallvOK` (RemapFacts.lean) says:
one (displacement, count) per group member, in group order; counts are not negative; non-empty ranges
lie inside the buffer of the size returned by setup and are pairwise disjoint; the pack loop packs
the message for a member into the range given for that member, the unpack loop unpacks from it.
Moreover members of the same group agree about the counts. -/
theorem C10_remap3d_alltoallv {P : Nat} (c : Call3) (hq : 1 ≤ c.nqty)
    (hp : c.permute = 0 ∨ c.permute = 1 ∨ c.permute = 2)
    (hf : c.packflag = 0 ∨ c.packflag = 1 ∨ c.packflag = 2) (hc : c.collective = true)
    (obj : Nat → RemapObj α PackPlan3) (hs : c.Setup P obj) (ci : Nat → CollInfo)
    (hci : ∀ r < P, (obj r).coll = some (ci r)) :
    (∀ r < P, AlltoallvOK dim3 P r (obj r) (ci r)) ∧
    (∀ a < P, ∀ b ∈ (ci a).pgroup, b < P ∧ (ci b).pgroup = (ci a).pgroup ∧
      ∃ ga ∈ (ci a).sendg, ∃ gb ∈ (ci b).recvg, ga.proc = b ∧ gb.proc = a ∧ ga.cnt = gb.cnt) ∧
    (∀ a < P, ∀ b < P, ∀ ga ∈ (ci a).sendg, ∀ gb ∈ (ci b).recvg,
      ga.proc = b → gb.proc = a → ga.cnt = gb.cnt) := by
  have G := geom3 (α := α) (P := P) (ins := c.ins) (outs := c.outs) hq hp hf
  have hs' : ∀ r < P, remapSetup dim3 P r c.ins c.outs c.nqty c.permute c.packflag true =
        some (obj r) := by rw [← hc]; exact hs
  have A := fun r hr => alltoallvOK G hr (hs' r hr) (hci r hr)
  have O := fun r hr => setup_collObj G hr (hs' r hr) (hci r hr)
  have cnt : ∀ a < P, ∀ b < P, ∀ ga ∈ (ci a).sendg, ∀ gb ∈ (ci b).recvg,
      ga.proc = b → gb.proc = a → ga.cnt = gb.cnt := by
    intro a ha b hb ga hga gb hgb h1 h2
    rw [(A a ha).2.1 ga hga, (A b hb).2.2 gb hgb, h1, h2]
  refine ⟨fun r hr => (A r hr).1, ?_, cnt⟩
  intro a ha b hb
  have hbP := (O a ha).lt b hb
  have hsame := (O a ha).same (O b hbP) hb
  have haa : a ∈ (ci b).pgroup := by
    rw [(O b hbP).mem_group]
    exact transGen_symm (fun _ _ => Talk.symm) (((O a ha).mem_group b).mp hb)
  rw [← (A a ha).1.send.procs] at hb
  rw [← (A b hbP).1.recv.procs] at haa
  obtain ⟨ga, h1, h2⟩ := List.mem_map.mp hb
  obtain ⟨gb, h3, h4⟩ := List.mem_map.mp haa
  exact ⟨hbP, hsame.symm, ga, h1, gb, h3, h2, h4, cnt a ha b hbP ga h1 gb h3 h2 h4⟩

/-- Two ranks: rank 0 keeps 4 scalars and sends 4 to rank 1; in the buffer its own part is second in
`sends` (position 1) but first in the group. -/
example : ((remapSetup (α := Int) dim3 2 0 (fun r => ⟨0, 1, 0, 1, r, r⟩)
    (fun r => ⟨r, r, 0, 1, 0, 1⟩) 2 1 2 true).bind fun o => o.coll.map CollInfo.sendg) =
    some [⟨0, 4, 0, some 1⟩, ⟨1, 4, 4, some 0⟩] := by decide

/-! ## C11 -/

/-- **C11.**  Remap `c` followed by the remap `c'` back: `c'` describes the boxes with the dimensions
in the order in which `c` stored them (`rotBox`) and uses the complementary permutation.  All input
values are restored; if the result goes back into the original array and the intermediate array is
another one, the original array is restored exactly. -/
theorem C11_remap3d_round_trip (e : Bool) {P : Nat} (c c' : Call3) (nfast nmid nslow : Int)
    (hin : Tiles3 P c.ins nfast nmid nslow) (hout : Tiles3 P c.outs nfast nmid nslow)
    (hv : c.Valid P) (hins : c'.ins = fun r => rotBox c.permute (c.outs r))
    (houts : c'.outs = fun r => rotBox c.permute (c.ins r))
    (hperm : c'.permute = invPermute c.permute) (hnq : c'.nqty = c.nqty)
    (hpf : c'.packflag = 0 ∨ c'.packflag = 1 ∨ c'.packflag = 2) (harr : c'.ai = c.ao)
    (obj obj' : Nat → RemapObj α PackPlan3) (hs : c.Setup P obj) (hs' : c'.Setup P obj')
    (m : Nat → LMem α) (hm : c.Fits P obj m) (hm' : c'.Fits P obj' m) :
    ∃ m', Terminates e P (seqProg3 [(c, obj), (c', obj')]) m m' ∧
      (∀ a < P, ∀ i j k q, (c.ins a).Has i j k → (0 ≤ q ∧ q < c.nqty) →
        (m' a).ub c'.ao (addr3 0 (c.ins a) c.nqty i j k q) =
          (m a).ub c.ai (addr3 0 (c.ins a) c.nqty i j k q)) ∧
      (c'.ao = c.ai → c.ai ≠ c.ao → ∀ a < P, (m' a).ub c.ai = (m a).ub c.ai) := by
  have hv' : c'.Valid P := by
    refine ⟨?_, by rw [hnq]; exact hv.nqty, ?_, hpf⟩
    · intro a ha b hb i j k h1 h2
      rw [hins] at h1 h2
      have key : ∀ b : Box3, (rotBox c.permute b).Has i j k →
          ∃ x y z, b.Has x y z ∧ (rotPt c.permute (x, y, z)) = (i, j, k) := by
        intro b h
        rcases hv.permute with hp | hp | hp
        · exact ⟨i, j, k, by simpa [rotBox, hp] using h, by simp [rotPt, hp]⟩
        · refine ⟨k, i, j, ?_, by simp [rotPt, hp]⟩
          simp only [rotBox, hp, Box3.Has] at h ⊢
          simp at h
          tauto
        · refine ⟨j, k, i, ?_, by simp [rotPt, hp]⟩
          simp only [rotBox, hp, Box3.Has] at h ⊢
          simp at h
          tauto
      obtain ⟨x, y, z, h3, h4⟩ := key _ h1
      obtain ⟨x', y', z', h5, h6⟩ := key _ h2
      have : (x, y, z) = (x', y', z') := by
        rw [← h6] at h4
        unfold rotPt at h4
        split_ifs at h4 <;> simp_all
      simp only [Prod.mk.injEq] at this
      obtain ⟨rfl, rfl, rfl⟩ := this
      exact hout.disjoint a ha b hb _ _ _ h3 h5
    · rw [hperm]; unfold invPermute
      split_ifs <;> simp
  obtain ⟨m', h1, ⟨v, h2, w, h3, h4⟩, _⟩ := remapSeq3_main e [(c, obj), (c', obj')] m
    (by intro x hx; simp only [List.mem_cons, List.not_mem_nil, or_false] at hx
        rcases hx with rfl | rfl
        · exact hv
        · exact hv')
    (by intro x hx; simp only [List.mem_cons, List.not_mem_nil, or_false] at hx
        rcases hx with rfl | rfl
        · exact hs
        · exact hs')
    (by intro x hx; simp only [List.mem_cons, List.not_mem_nil, or_false] at hx
        rcases hx with rfl | rfl
        · exact hm
        · exact hm')
  have back : ∀ a < P, ∀ i j k q, (c.ins a).Has i j k → (0 ≤ q ∧ q < c.nqty) →
        (m' a).ub c'.ao (addr3 0 (c.ins a) c.nqty i j k q) =
          (m a).ub c.ai (addr3 0 (c.ins a) c.nqty i j k q) := by
    intro a ha i j k q hax hq
    obtain ⟨hi, hj, hk⟩ := hin.inside a ha i j k hax
    obtain ⟨b, hb, hbx⟩ := hout.owner i j k hi hj hk
    have r1 := h2.moved a ha b hb i j k q hax hbx hq
    have r2 := h3.moved b hb a ha (rotPt c.permute (i, j, k)).1 (rotPt c.permute (i, j, k)).2.1
      (rotPt c.permute (i, j, k)).2.2 q
      (by rw [hins]; exact (rotBox_has _ _ _ _ _).mpr hbx)
      (by rw [houts]; exact (rotBox_has _ _ _ _ _).mpr hax) (by rw [hnq]; exact hq)
    rw [show (m' a).ub = w a from h4 a ha]
    simp only [hins, houts, hperm, hnq, addr3_rot, addr3_rot_inv hv.permute, harr] at r2
    rw [r2, r1]
  refine ⟨m', h1.terminates, back, ?_⟩
  intro hao hne a ha
  funext x
  by_cases hx : ∃ i j k q, (c.ins a).Has i j k ∧ (0 ≤ q ∧ q < c.nqty) ∧
      x = addr3 0 (c.ins a) c.nqty i j k q
  · obtain ⟨i, j, k, q, hax, hq, rfl⟩ := hx
    have := back a ha i j k q hax hq
    rw [hao] at this
    exact this
  · have r1 : v a c.ai x = (m a).ub c.ai x := by rw [h2.other a ha c.ai hne]
    have r2 := h3.frame a ha x (by
      intro i j k q h5 h6 h7
      apply hx
      rw [houts] at h5
      -- undo the rotation
      have : ∃ i' j' k', rotPt c.permute (i', j', k') = (i, j, k) := by
        rcases hv.permute with hp | hp | hp
        · exact ⟨i, j, k, by simp [rotPt, hp]⟩
        · exact ⟨k, i, j, by simp [rotPt, hp]⟩
        · exact ⟨j, k, i, by simp [rotPt, hp]⟩
      obtain ⟨i', j', k', he⟩ := this
      have e1 : i = (rotPt c.permute (i', j', k')).1 := by rw [he]
      have e2 : j = (rotPt c.permute (i', j', k')).2.1 := by rw [he]
      have e3 : k = (rotPt c.permute (i', j', k')).2.2 := by rw [he]
      rw [houts, hperm, hnq, e1, e2, e3, addr3_rot_inv hv.permute] at h7
      rw [e1, e2, e3] at h5
      exact ⟨i', j', k', q, (rotBox_has _ _ _ _ _).mp h5, by rw [← hnq]; exact h6, h7⟩)
    rw [show (m' a).ub = w a from h4 a ha]
    rw [hao] at r2
    rw [← r1, ← r2]

/-- Back from `i`-slabs stored with `permute = 1` to `k`-slabs. -/
def demoBack (c : Bool) : Call3 where
  ins r := ⟨0, 1, 0, 1, r, r⟩
  outs r := ⟨0, 1, r, r, 0, 1⟩
  nqty := 2
  permute := 2
  packflag := 2
  collective := c
  inst := 1
  ai := 1
  ao := 0

theorem demoBack_fits (c : Bool) {obj : Nat → RemapObj Int PackPlan3}
    (hs : (demoBack c).Setup 2 obj) : (demoBack c).Fits 2 obj demoMem := by
  have hsz : ∀ r < 2, (obj r).sendsize ≤ 8 ∧ (obj r).recvsize ≤ 8 := by
    intro r hr
    have h := hs r hr
    have h' : ∀ r < 2, ((remapSetup (α := Int) dim3 2 r (demoBack c).ins (demoBack c).outs
        2 2 2 c).map fun o => decide (o.sendsize ≤ 8 ∧ o.recvsize ≤ 8)) = some true := by
      cases c <;> decide
    have h2 := h' r hr
    rw [show (demoBack c).nqty = 2 from rfl, show (demoBack c).permute = 2 from rfl,
      show (demoBack c).packflag = 2 from rfl, show (demoBack c).collective = c from rfl] at h
    rw [h] at h2
    simpa using h2
  have hacc : ∀ (f : Int → Int) (n : Int), n ≤ 8 → accessible (Mem.ofFn 8 f) 0 n := by
    intro f n hn a h1 h2
    simp only [Mem.ofFn]
    rw [if_pos (by omega)]; rfl
  constructor
  · intro r _
    apply hacc
    simp only [demoBack, Box3.count, Box3.isize, Box3.jsize, Box3.ksize]
    simp
  · intro r _
    apply hacc
    simp only [demoBack, Box3.count, Box3.isize, Box3.jsize, Box3.ksize]
    simp
  · intro r hr; exact hacc _ _ (hsz r hr).1
  · intro r hr; exact hacc _ _ (hsz r hr).2

example : ∃ (obj obj' : Nat → RemapObj Int PackPlan3) (m' : Nat → LMem Int),
    Terminates false 2 (seqProg3 [(demo 1 2 false 0 1, obj), (demoBack true, obj')]) demoMem m' ∧
    ∀ a < 2, (m' a).ub 0 = (demoMem a).ub 0 := by
  obtain ⟨obj, hs⟩ := setup3_exists (α := Int) 2 (demo 1 2 false 0 1) (by decide)
    (Or.inr (Or.inl rfl)) (Or.inr (Or.inr rfl))
  obtain ⟨obj', hs'⟩ := setup3_exists (α := Int) 2 (demoBack true) (by decide)
    (Or.inr (Or.inr rfl)) (Or.inr (Or.inr rfl))
  obtain ⟨m', h1, _, h3⟩ := C11_remap3d_round_trip false (demo 1 2 false 0 1) (demoBack true) 2 2 2
    (demo_tiles_in _ _ _ _ _) (demo_tiles_out _ _ _ _ _)
    (demo_valid _ _ _ _ _ (Or.inr (Or.inl rfl)) (Or.inr (Or.inr rfl))) (by funext r; rfl)
    (by funext r; rfl) rfl rfl (Or.inr (Or.inr rfl)) rfl obj obj' hs hs' demoMem
    (demo_fits 1 false 0 1 (Or.inr (Or.inl rfl)) hs) (demoBack_fits true hs')
  exact ⟨obj, obj', m', h1, h3 rfl (by decide)⟩

/-! ## C12 -/

/-- **C12.**  With distinct arrays the input array is unchanged, no other user array changes, and in
the output array nothing beyond the first `nqty*outsize` scalars changes. -/
theorem C12_remap3d_no_side_effects (e : Bool) {P : Nat} (c : Call3) (hv : c.Valid P)
    (obj : Nat → RemapObj α PackPlan3) (hs : c.Setup P obj)
    (m : Nat → LMem α) (hm : c.Fits P obj m) :
    ∃ m', Terminates e P (c.prog obj) m m' ∧ ∀ r < P,
      (c.ai ≠ c.ao → (m' r).ub c.ai = (m r).ub c.ai) ∧
      (∀ n, n ≠ c.ao → (m' r).ub n = (m r).ub n) ∧
      (∀ x, (x < 0 ∨ c.nqty * (c.outs r).count ≤ x) → (m' r).ub c.ao x = (m r).ub c.ao x) := by
  obtain ⟨m', h1, h2, _⟩ := remap3_main e hv hs hm
  refine ⟨m', h1.terminates, fun r hr => ⟨fun h => h2.other r hr _ h, fun n h => h2.other r hr n h, ?_⟩⟩
  intro x hx
  apply h2.frame r hr
  intro i j k q h3 h4 he
  have := addr3_range (permute := c.permute) h3 h4
  rw [← Box3.count_of_has h3, ← he] at this
  omega

example : ∃ (obj : Nat → RemapObj Int PackPlan3) (m' : Nat → LMem Int),
    Terminates false 2 ((demo 1 2 true 0 1).prog obj) demoMem m' ∧ (m' 1).ub 0 = (demoMem 1).ub 0 := by
  obtain ⟨obj, hs⟩ := setup3_exists (α := Int) 2 (demo 1 2 true 0 1) (by decide)
    (Or.inr (Or.inl rfl)) (Or.inr (Or.inr rfl))
  obtain ⟨m', h1, h2⟩ := C12_remap3d_no_side_effects false (demo 1 2 true 0 1)
    (demo_valid _ _ _ _ _ (Or.inr (Or.inl rfl)) (Or.inr (Or.inr rfl))) obj hs demoMem
    (demo_fits 1 true 0 1 (Or.inr (Or.inl rfl)) hs)
  exact ⟨obj, m', h1, (h2 1 (by decide)).1 (by decide)⟩

/-! ## C13 -/

/-- **C13.**  A sequence of remaps on the same ranks, all with the same communicator and tag, under
every schedule: the final arrays are those of the calls made one after the other, each call
delivering exactly its own data (`Call3.Post`). -/
theorem C13_remap3d_sequences (e : Bool) {P : Nat} (l : List (Call3 × (Nat → RemapObj α PackPlan3)))
    (m : Nat → LMem α) (hv : ∀ c ∈ l, c.1.Valid P) (hs : ∀ c ∈ l, c.1.Setup P c.2)
    (hf : ∀ c ∈ l, c.1.Fits P c.2 m) :
    ∃ m', Terminates e P (seqProg3 l) m m' ∧
      Chain3 P (l.map Prod.fst) (fun r => (m r).ub) (fun r => (m' r).ub) := by
  obtain ⟨m', h1, h2, _⟩ := remapSeq3_main e l m hv hs hf
  exact ⟨m', h1.terminates, h2⟩

example : ∃ (obj : Nat → RemapObj Int PackPlan3) (m' : Nat → LMem Int),
    Terminates true 2 (seqProg3 [(demo 1 2 false 0 1, obj), (demo 1 2 false 2 3, obj)]) demoMem m' ∧
    (m' 1).ub 1 4 = some 1002 ∧ (m' 1).ub 3 4 = some 1202 := by
  obtain ⟨obj, hs⟩ := setup3_exists (α := Int) 2 (demo 1 2 false 0 1) (by decide)
    (Or.inr (Or.inl rfl)) (Or.inr (Or.inr rfl))
  obtain ⟨m', h1, v, h2, w, h3, h4⟩ := C13_remap3d_sequences true
    [(demo 1 2 false 0 1, obj), (demo 1 2 false 2 3, obj)] demoMem
    (by intro x hx; simp only [List.mem_cons, List.not_mem_nil, or_false] at hx
        rcases hx with rfl | rfl <;>
        exact demo_valid _ _ _ _ _ (Or.inr (Or.inl rfl)) (Or.inr (Or.inr rfl)))
    (by intro x hx; simp only [List.mem_cons, List.not_mem_nil, or_false] at hx
        rcases hx with rfl | rfl <;> exact hs)
    (by intro x hx; simp only [List.mem_cons, List.not_mem_nil, or_false] at hx
        rcases hx with rfl | rfl
        · exact demo_fits 1 false 0 1 (Or.inr (Or.inl rfl)) hs
        · exact demo_fits 1 false 2 3 (Or.inr (Or.inl rfl)) hs)
  have h2' : Call3.Post 2 (demo 1 2 false 0 1) (fun r => (demoMem r).ub) v := h2
  have h3' : Call3.Post 2 (demo 1 2 false 2 3) v w := h3
  have h4' : (m' 1).ub = w 1 := h4 1 (by decide)
  refine ⟨obj, m', h1, ?_, ?_⟩
  · have r1 := h2'.moved 1 (by decide) 1 (by decide) 1 0 1 0 (by decide) (by decide) (by decide)
    have r2 := h3'.other 1 (by decide) 1 (by decide)
    rw [h4', r2]
    exact r1
  · have r1 := h3'.moved 1 (by decide) 1 (by decide) 1 0 1 0 (by decide) (by decide) (by decide)
    have r2 : v 1 2 = (demoMem 1).ub 2 := h2'.other 1 (by decide) 2 (by decide)
    rw [h4']
    refine Eq.trans r1 ?_
    rw [show (demo 1 2 false 2 3).ai = 2 from rfl, r2]
    rfl

end FftMpi
