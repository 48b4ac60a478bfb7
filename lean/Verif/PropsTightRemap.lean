import Verif.TightRemap
import Verif.PropsRemap3d
import Verif.PropsRemap2d

/-!
# Property C75, remaps: the buffer sizes that `setup` returns are the smallest that work

`setup` of a remap returns the sizes of the send and the receive buffer.  C03 and C39 say that buffers of these sizes suffice.
Here: they are also necessary.  A call ends without undefined behaviour if and only if all locations of both buffers below the
returned sizes are accessible, on all ranks.

In point-to-point mode the receive buffer is as large as the output box, whatever part of it comes from somewhere
(remap3d.cpp:417, remap2d.cpp:370); there the claim needs that every point of the output boxes has an owner.
-/

namespace FftMpi

section

variable {α : Type}

theorem boxPts_length {nqty : Int} (b : Box3) (hq : 0 ≤ nqty) : ((boxPts b nqty).length : Int) = nqty * b.count := by
  unfold boxPts
  rw [List.length_map]
  have key : ∀ x y z : Int, ((relPts x y z nqty).length : Int) = ((relPts (max x 0) (max y 0) (max z 0) nqty).length : Int) := by
    intro x y z
    have hi : ∀ n : Int, irange n = irange (max n 0) := by
      intro n
      by_cases h : 0 ≤ n
      · rw [max_eq_left h]
      · rw [max_eq_right (by omega)]
        unfold irange
        rw [show n.toNat = (0 : Int).toNat by simp; omega]
    unfold relPts
    rw [← hi, ← hi, ← hi]
  rw [key, relPts_length _ _ _ _ (le_max_right ..) (le_max_right ..) (le_max_right ..) hq]
  unfold Box3.count
  ring

theorem src3_length {ins outs : Nat → Box3} {nqty : Int} (hq : 0 ≤ nqty) (a b : Nat) :
    ((src3 ins outs nqty a b).length : Int) = nqty * (inter3 (ins a) (outs b)).count := by
  unfold src3
  rw [List.length_map, boxPts_length _ hq]

theorem foldl_max_attained (l : List Int) (a : Int) : l.foldl max a = a ∨ l.foldl max a ∈ l := by
  induction l generalizing a with
  | nil => exact Or.inl rfl
  | cons x l ih =>
    rcases ih (max a x) with h | h
    · rw [List.foldl_cons, h]
      rcases max_choice a x with h' | h' <;> rw [h']
      · exact Or.inl rfl
      · exact Or.inr (List.mem_cons_self ..)
    · exact Or.inr (List.mem_cons_of_mem _ h)

/-- The send size in point-to-point mode is the size of some message. -/
theorem p2p_sendsize_attained {E π : Type} {D : Dim α E π} {P : Nat} {ins outs : Nat → E} {nqty permute packflag : Int}
    {σ τ : Nat → Nat → List Int} (G : Geom D P ins outs nqty permute packflag σ τ) {r : Nat} (hr : r < P)
    {o : RemapObj α π} (h : remapSetup D P r ins outs nqty permute packflag false = some o) :
    o.sendsize = 0 ∨ ∃ p < P, p ≠ r ∧ o.sendsize = (σ r p).length := by
  have O := p2pObj_of_setup G hr h
  rw [setup_sendsize_p2p h]
  rcases foldl_max_attained ((o.sends.take o.nsend).map SEnt.size) 0 with h0 | h0
  · exact Or.inl h0
  · right
    obtain ⟨e, he, hsz⟩ := List.mem_map.mp h0
    rw [O.sends, List.mem_filterMap] at he
    obtain ⟨p, hp, hpe⟩ := he
    have hpP := others_lt hr p hp
    refine ⟨p, hpP, fun h' => ?_, ?_⟩
    · subst h'; exact not_mem_others P p hr hp
    · rw [← hsz]
      rcases sEnt_cases G hr hpP with ⟨_, h'⟩ | ⟨_, e', h1, _, h2, _⟩
      · rw [h'] at hpe; cases hpe
      · rw [h1] at hpe
        obtain rfl := Option.some.inj hpe
        exact h2

/-- The points of all boxes `b` have an owner among the boxes `a`. -/
def Covered3 (P : Nat) (a b : Nat → Box3) : Prop :=
  ∀ r < P, ∀ i j k, (b r).Has i j k → ∃ p < P, (a p).Has i j k

/-- **The sizes**, in terms of the overlaps of the boxes: `nqty` values for each point. -/
theorem C75_sizes3 {P : Nat} {c : Call3} {obj : Nat → RemapObj α PackPlan3} (hv : c.Valid P) (hs : c.Setup P obj) {r : Nat}
    (hr : r < P) :
    (c.collective = true →
      (obj r).sendsize = c.nqty * ((List.range P).map fun p => (inter3 (c.ins r) (c.outs p)).count).sum ∧
      (obj r).recvsize = c.nqty * ((List.range P).map fun p => (inter3 (c.ins p) (c.outs r)).count).sum) ∧
    (c.collective = false →
      (∀ p < P, p ≠ r → c.nqty * (inter3 (c.ins r) (c.outs p)).count ≤ (obj r).sendsize) ∧
      ((obj r).sendsize = 0 ∨ ∃ p < P, p ≠ r ∧ (obj r).sendsize = c.nqty * (inter3 (c.ins r) (c.outs p)).count) ∧
      (obj r).recvsize = c.nqty * (c.outs r).isize * (c.outs r).jsize * (c.outs r).ksize) := by
  have hq : 0 ≤ c.nqty := by have := hv.nqty; omega
  have G := geom3 (α := α) (P := P) (ins := c.ins) (outs := c.outs) hv.nqty hv.permute hv.packflag
  have hsum : ∀ f : Nat → List Int, ∀ g : Nat → Int, (∀ p, ((f p).length : Int) = c.nqty * g p) →
      (((List.range P).flatMap f).length : Int) = c.nqty * ((List.range P).map g).sum := by
    intro f g hfg
    induction (List.range P) with
    | nil => simp
    | cons x l ih =>
      rw [List.flatMap_cons, List.length_append, List.map_cons, List.sum_cons, mul_add, ← hfg x, ← ih]
      exact Nat.cast_add _ _
  have h := hs r hr
  constructor
  · intro hc
    rw [hc] at h
    obtain ⟨o', g, h1, O⟩ := collObj_exists G hr
    rw [h] at h1
    obtain rfl := Option.some.inj h1
    rw [O.sendsize, O.recvsize]
    exact ⟨hsum _ _ fun p => src3_length hq r p, hsum _ _ fun p => src3_length hq p r⟩
  · intro hc
    rw [hc] at h
    have O := p2pObj_of_setup G hr h
    refine ⟨fun p hp hne => ?_, ?_, O.recvsize⟩
    · rw [← src3_length hq]
      exact O.sendsize p ((mem_others P r hr p).mpr ⟨hp, hne⟩)
    · rcases p2p_sendsize_attained G hr h with h0 | ⟨p, hp, hne, h0⟩
      · exact Or.inl h0
      · exact Or.inr ⟨p, hp, hne, by rw [h0, src3_length hq]⟩

theorem remap3_needs {P : Nat} {c : Call3} {obj : Nat → RemapObj α PackPlan3} (hv : c.Valid P)
    (hs : c.Setup P obj) (hprop : c.collective = false → ∀ r < P, 0 ≤ (c.outs r).isize ∧ 0 ≤ (c.outs r).jsize ∧ 0 ≤ (c.outs r).ksize)
    (hcov : c.collective = false → Covered3 P c.ins c.outs) {r : Nat} (hr : r < P) :
    (∀ x, 0 ≤ x → x < (obj r).sendsize → ∃ i ∈ c.prog obj r, NeedsS i x) ∧
    (∀ x, 0 ≤ x → x < (obj r).recvsize → ∃ i ∈ c.prog obj r, NeedsR i x) := by
  have G := geom3 (α := α) (P := P) (ins := c.ins) (outs := c.outs) hv.nqty hv.permute hv.packflag
  refine prog_needs G hr (hs r hr) (fun hc x h0 hx => ?_) _ _ _
  have hp := hprop hc r hr
  change x < c.nqty * (c.outs r).isize * (c.outs r).jsize * (c.outs r).ksize at hx
  have hx' : x < c.nqty * (c.outs r).vol := by
    unfold Box3.vol
    calc x < _ := hx
      _ = _ := by ring
  have hpos : 0 < (c.outs r).isize ∧ 0 < (c.outs r).jsize ∧ 0 < (c.outs r).ksize := by
    obtain ⟨h1, h2, h3⟩ := hp
    refine ⟨lt_of_le_of_ne h1 fun h => ?_, lt_of_le_of_ne h2 fun h => ?_, lt_of_le_of_ne h3 fun h => ?_⟩ <;>
    · rw [← h] at hx
      simp at hx
      omega
  obtain ⟨i, j, k, q, hh, hq, ha⟩ := addr3_surj (permute := c.permute) hpos.1 hpos.2.1 hpos.2.2
    (by have := hv.nqty; omega) ⟨h0, hx'⟩
  obtain ⟨p, hpP, hpo⟩ := hcov hc r hr i j k hh
  refine ⟨p, hpP, List.mem_map.mpr ⟨(i, j, k, q), ?_, ha⟩⟩
  rw [mem_boxPts, inter3_has]
  exact ⟨⟨hpo, hh⟩, hq⟩

/-- **C75, 3d remap**: with arrays that hold the data, a call ends in every interleaving, without undefined behaviour and
without deadlock, if and only if the buffers have the returned sizes on all ranks. -/
theorem C75_remap3d (e : Bool) {P : Nat} {c : Call3} {obj : Nat → RemapObj α PackPlan3} {m : Nat → LMem α} (hv : c.Valid P)
    (hs : c.Setup P obj) (hin : ∀ r < P, accessible ((m r).ub c.ai) 0 (c.nqty * (c.ins r).count))
    (hout : ∀ r < P, accessible ((m r).ub c.ao) 0 (c.nqty * (c.outs r).count))
    (hprop : c.collective = false → ∀ r < P, 0 ≤ (c.outs r).isize ∧ 0 ≤ (c.outs r).jsize ∧ 0 ≤ (c.outs r).ksize)
    (hcov : c.collective = false → Covered3 P c.ins c.outs) :
    (∃ m', Terminates e P (c.prog obj) m m') ↔
      ∀ r < P, accessible (m r).sb 0 (obj r).sendsize ∧ accessible (m r).rb 0 (obj r).recvsize := by
  have G := geom3 (α := α) (P := P) (ins := c.ins) (outs := c.outs) hv.nqty hv.permute hv.packflag
  constructor
  · rintro ⟨m', hT⟩ r hr
    have hn := remap3_needs hv hs hprop hcov hr
    have ht := hT.needs hr (prog_tame G hr (hs r hr) _ _ _)
    constructor
    · intro x h0 hx
      obtain ⟨i, hi, h⟩ := hn.1 x h0 (by omega)
      exact (ht i hi x).1 h
    · intro x h0 hx
      obtain ⟨i, hi, h⟩ := hn.2 x h0 (by omega)
      exact (ht i hi x).2 h
  · intro h
    obtain ⟨m', h1, _⟩ := remap3_main e hv hs ⟨hin, hout, fun r hr => (h r hr).1, fun r hr => (h r hr).2⟩
    exact ⟨m', h1.terminates⟩

/-- Example: in the running example with two ranks rank 1 needs 4 values in the send buffer and 8 in the receive buffer. -/
example {obj : Nat → RemapObj Int PackPlan3} (hs : (demo 1 0 false 0 1).Setup 2 obj) :
    (obj 1).sendsize = 4 ∧ (obj 1).recvsize = 8 := by
  obtain ⟨h1, h2, h3⟩ := (C75_sizes3 (demo_valid 1 0 false 0 1 (by decide) (by decide)) hs (r := 1) (by decide)).2 rfl
  have e : (demo 1 0 false 0 1).nqty * (inter3 ((demo 1 0 false 0 1).ins 1) ((demo 1 0 false 0 1).outs 0)).count = 4 := by
    decide +kernel
  have h1' := h1 0 (by decide) (by decide)
  rw [e] at h1'
  refine ⟨?_, by rw [h3]; decide +kernel⟩
  rcases h2 with h2 | ⟨p, hp, hne, h2⟩
  · omega
  · obtain rfl : p = 0 := by omega
    rw [h2, e]

/-- Example: with a receive buffer of 7 values on rank 1 the call does not always end well. -/
example {obj : Nat → RemapObj Int PackPlan3} (hs : (demo 1 0 false 0 1).Setup 2 obj) :
    ¬ ∃ m', Terminates false 2 ((demo 1 0 false 0 1).prog obj)
      (fun r => if r = 1 then { demoMem 1 with rb := Mem.ofFn 7 fun _ => 0 } else demoMem r) m' := by
  rw [C75_remap3d false (demo_valid 1 0 false 0 1 (by decide) (by decide)) hs]
  · intro h
    have h3 := ((C75_sizes3 (demo_valid 1 0 false 0 1 (by decide) (by decide)) hs (r := 1) (by decide)).2 rfl).2.2
    have e : (demo 1 0 false 0 1).nqty * ((demo 1 0 false 0 1).outs 1).isize * ((demo 1 0 false 0 1).outs 1).jsize *
      ((demo 1 0 false 0 1).outs 1).ksize = 8 := by decide +kernel
    have := (h 1 (by decide)).2 7 (by decide) (by rw [h3, e]; decide)
    revert this
    simp [Mem.ofFn]
  · intro r hr x h0 hx
    have hr' : r = 0 ∨ r = 1 := by omega
    have e : (demo 1 0 false 0 1).nqty * ((demo 1 0 false 0 1).ins r).count = 8 := by
      rcases hr' with rfl | rfl <;> decide +kernel
    rw [e] at hx
    rcases hr' with rfl | rfl <;> simp [demoMem, Mem.ofFn] <;> omega
  · intro r hr x h0 hx
    have hr' : r = 0 ∨ r = 1 := by omega
    have e : (demo 1 0 false 0 1).nqty * ((demo 1 0 false 0 1).outs r).count = 8 := by
      rcases hr' with rfl | rfl <;> decide +kernel
    rw [e] at hx
    rcases hr' with rfl | rfl <;> simp [demoMem, Mem.ofFn] <;> omega
  · intro _ r hr
    have hr' : r = 0 ∨ r = 1 := by omega
    rcases hr' with rfl | rfl <;> decide +kernel
  · intro _ r hr i j k h
    have := (demo_tiles_out 1 0 false 0 1).inside r hr i j k h
    exact (demo_tiles_in 1 0 false 0 1).owner i j k this.1 this.2.1 this.2.2

/-! ## 2d -/

/-- The points of all boxes `b` have an owner among the boxes `a`. -/
def Covered2 (P : Nat) (a b : Nat → Box2) : Prop :=
  ∀ r < P, ∀ i j, (b r).Has i j → ∃ p < P, (a p).Has i j

theorem src2_length {ins outs : Nat → Box2} {nqty : Int} (hq : 0 ≤ nqty) (a b : Nat) :
    ((src2 ins outs nqty a b).length : Int) = nqty * (inter2 (ins a) (outs b)).count := by
  unfold src2
  rw [src3_length hq, inter2_lift, Box2.lift_count]

/-- **The sizes** in 2d. -/
theorem C75_sizes2 {P : Nat} {c : Call2} {obj : Nat → RemapObj α PackPlan2} (hv : c.Valid P) (hs : c.Setup P obj) {r : Nat}
    (hr : r < P) :
    (c.collective = true →
      (obj r).sendsize = c.nqty * ((List.range P).map fun p => (inter2 (c.ins r) (c.outs p)).count).sum ∧
      (obj r).recvsize = c.nqty * ((List.range P).map fun p => (inter2 (c.ins p) (c.outs r)).count).sum) ∧
    (c.collective = false →
      (∀ p < P, p ≠ r → c.nqty * (inter2 (c.ins r) (c.outs p)).count ≤ (obj r).sendsize) ∧
      ((obj r).sendsize = 0 ∨ ∃ p < P, p ≠ r ∧ (obj r).sendsize = c.nqty * (inter2 (c.ins r) (c.outs p)).count) ∧
      (obj r).recvsize = c.nqty * (c.outs r).isize * (c.outs r).jsize) := by
  have hq : 0 ≤ c.nqty := by have := hv.nqty; omega
  have G := geom2 (α := α) (P := P) (ins := c.ins) (outs := c.outs) hv.nqty hv.permute hv.packflag
  have hsum : ∀ f : Nat → List Int, ∀ g : Nat → Int, (∀ p, ((f p).length : Int) = c.nqty * g p) →
      (((List.range P).flatMap f).length : Int) = c.nqty * ((List.range P).map g).sum := by
    intro f g hfg
    induction (List.range P) with
    | nil => simp
    | cons x l ih =>
      rw [List.flatMap_cons, List.length_append, List.map_cons, List.sum_cons, mul_add, ← hfg x, ← ih]
      exact Nat.cast_add _ _
  have h := hs r hr
  constructor
  · intro hc
    rw [hc] at h
    obtain ⟨o', g, h1, O⟩ := collObj_exists G hr
    rw [h] at h1
    obtain rfl := Option.some.inj h1
    rw [O.sendsize, O.recvsize]
    exact ⟨hsum _ _ fun p => src2_length hq r p, hsum _ _ fun p => src2_length hq p r⟩
  · intro hc
    rw [hc] at h
    have O := p2pObj_of_setup G hr h
    refine ⟨fun p hp hne => ?_, ?_, O.recvsize⟩
    · rw [← src2_length hq]
      exact O.sendsize p ((mem_others P r hr p).mpr ⟨hp, hne⟩)
    · rcases p2p_sendsize_attained G hr h with h0 | ⟨p, hp, hne, h0⟩
      · exact Or.inl h0
      · exact Or.inr ⟨p, hp, hne, by rw [h0, src2_length hq]⟩

theorem remap2_needs {P : Nat} {c : Call2} {obj : Nat → RemapObj α PackPlan2} (hv : c.Valid P)
    (hs : c.Setup P obj) (hprop : c.collective = false → ∀ r < P, 0 ≤ (c.outs r).isize ∧ 0 ≤ (c.outs r).jsize)
    (hcov : c.collective = false → Covered2 P c.ins c.outs) {r : Nat} (hr : r < P) :
    (∀ x, 0 ≤ x → x < (obj r).sendsize → ∃ i ∈ c.prog obj r, NeedsS i x) ∧
    (∀ x, 0 ≤ x → x < (obj r).recvsize → ∃ i ∈ c.prog obj r, NeedsR i x) := by
  have G := geom2 (α := α) (P := P) (ins := c.ins) (outs := c.outs) hv.nqty hv.permute hv.packflag
  refine prog_needs G hr (hs r hr) (fun hc x h0 hx => ?_) _ _ _
  obtain ⟨hp1, hp2⟩ := hprop hc r hr
  change x < c.nqty * (c.outs r).isize * (c.outs r).jsize at hx
  have hx' : x < c.nqty * (c.outs r).count := by
    unfold Box2.count
    rw [max_eq_left hp1, max_eq_left hp2]
    calc x < _ := hx
      _ = _ := by ring
  obtain ⟨i, j, q, hh, hq, ha⟩ := addr2_surj hv.permute (by have := hv.nqty; omega) h0 hx'
  obtain ⟨p, hpP, hpo⟩ := hcov hc r hr i j hh
  refine ⟨p, hpP, List.mem_map.mpr ⟨(i, j, 0, q), ?_, ?_⟩⟩
  · rw [mem_boxPts, inter3_has]
    exact ⟨⟨Box2.lift_has.mpr ⟨hpo, rfl⟩, Box2.lift_has.mpr ⟨hh, rfl⟩⟩, hq⟩
  · rw [ha, ← addr2_lift hv.permute]

/-- **C75, 2d remap**. -/
theorem C75_remap2d (e : Bool) {P : Nat} {c : Call2} {obj : Nat → RemapObj α PackPlan2} {m : Nat → LMem α} (hv : c.Valid P)
    (hs : c.Setup P obj) (hin : ∀ r < P, accessible ((m r).ub c.ai) 0 (c.nqty * (c.ins r).count))
    (hout : ∀ r < P, accessible ((m r).ub c.ao) 0 (c.nqty * (c.outs r).count))
    (hprop : c.collective = false → ∀ r < P, 0 ≤ (c.outs r).isize ∧ 0 ≤ (c.outs r).jsize)
    (hcov : c.collective = false → Covered2 P c.ins c.outs) :
    (∃ m', Terminates e P (c.prog obj) m m') ↔
      ∀ r < P, accessible (m r).sb 0 (obj r).sendsize ∧ accessible (m r).rb 0 (obj r).recvsize := by
  have G := geom2 (α := α) (P := P) (ins := c.ins) (outs := c.outs) hv.nqty hv.permute hv.packflag
  constructor
  · rintro ⟨m', hT⟩ r hr
    have hn := remap2_needs hv hs hprop hcov hr
    have ht := hT.needs hr (prog_tame G hr (hs r hr) _ _ _)
    constructor
    · intro x h0 hx
      obtain ⟨i, hi, h⟩ := hn.1 x h0 (by omega)
      exact (ht i hi x).1 h
    · intro x h0 hx
      obtain ⟨i, hi, h⟩ := hn.2 x h0 (by omega)
      exact (ht i hi x).2 h
  · intro h
    obtain ⟨m', h1, _⟩ := remap2_main e hv hs ⟨hin, hout, fun r hr => (h r hr).1, fun r hr => (h r hr).2⟩
    exact ⟨m', h1.terminates⟩

/-- Example: in collective mode also a rank's own data pass through the buffers.  Without room for them on rank 0 the call
does not always end well. -/
example {obj : Nat → RemapObj Int PackPlan2} (hs : (demo2 1 2 true 0 1).Setup 2 obj) :
    ¬ ∃ m', Terminates false 2 ((demo2 1 2 true 0 1).prog obj)
      (fun r => if r = 0 then { demo2Mem 0 with sb := Mem.ofFn 3 fun _ => 0 } else demo2Mem r) m' := by
  rw [C75_remap2d false (demo2_valid 1 2 true 0 1 (by decide) flag2) hs]
  · intro h
    have h3 := ((C75_sizes2 (demo2_valid 1 2 true 0 1 (by decide) flag2) hs (r := 0) (by decide)).1 rfl).1
    have e : (demo2 1 2 true 0 1).nqty * ((List.range 2).map fun p =>
      (inter2 ((demo2 1 2 true 0 1).ins 0) ((demo2 1 2 true 0 1).outs p)).count).sum = 4 := by decide +kernel
    have := (h 0 (by decide)).1 3 (by decide) (by rw [h3, e]; decide)
    revert this
    simp [Mem.ofFn]
  · intro r hr x h0 hx
    have hr' : r = 0 ∨ r = 1 := by omega
    have e : (demo2 1 2 true 0 1).nqty * ((demo2 1 2 true 0 1).ins r).count = 4 := by
      rcases hr' with rfl | rfl <;> decide +kernel
    rw [e] at hx
    rcases hr' with rfl | rfl <;> simp [demo2Mem, Mem.ofFn] <;> omega
  · intro r hr x h0 hx
    have hr' : r = 0 ∨ r = 1 := by omega
    have e : (demo2 1 2 true 0 1).nqty * ((demo2 1 2 true 0 1).outs r).count = 4 := by
      rcases hr' with rfl | rfl <;> decide +kernel
    rw [e] at hx
    rcases hr' with rfl | rfl <;> simp [demo2Mem, Mem.ofFn] <;> omega
  · intro h; cases h
  · intro h; cases h

end

end FftMpi
