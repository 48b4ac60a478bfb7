import Verif.Fft3dRun

/-!
# Upper bounds of buffer sizes, larger buffers, contents of arrays
-/

noncomputable section

namespace FftMpi

variable {α : Type}

/-- What a message of `collide` counts. -/
theorem collide3_pts (b1 b2 : Box3) :
    (collide3 b1 b2 = none ∧ b1.pts ∩ b2.pts = ∅) ∨
    ∃ ov, collide3 b1 b2 = some ov ∧ ov.pts = b1.pts ∩ b2.pts ∧ size3 2 ov = 2 * ((b1.pts ∩ b2.pts).card : Int) := by
  unfold collide3
  dsimp only
  split_ifs with h
  · refine Or.inl ⟨rfl, ?_⟩
    rw [Finset.eq_empty_iff_forall_notMem]
    intro p hp
    rw [Finset.mem_inter, Box3.mem_pts, Box3.mem_pts] at hp
    unfold Box3.Has at hp
    omega
  · refine Or.inr ⟨_, rfl, ?_⟩
    have e : (Box3.mk (max b1.ilo b2.ilo) (min b1.ihi b2.ihi) (max b1.jlo b2.jlo) (min b1.jhi b2.jhi)
        (max b1.klo b2.klo) (min b1.khi b2.khi)).pts = b1.pts ∩ b2.pts := by
      ext p
      rw [Finset.mem_inter, Box3.mem_pts, Box3.mem_pts, Box3.mem_pts]
      unfold Box3.Has
      simp only
      omega
    refine ⟨e, ?_⟩
    rw [← e, Box3.card_pts, ← vol_eq_count (by
      unfold Box3.Proper Box3.isize Box3.jsize Box3.ksize
      simp only
      omega)]
    unfold size3 Box3.vol
    ring

theorem sum_inter_le {P : Nat} {b : Box3} {bs : Nat → Box3} (hd : Disjoint3 P bs) :
    ∑ p ∈ Finset.range P, (b.pts ∩ (bs p).pts).card ≤ b.pts.card := by
  rw [← Finset.card_biUnion]
  · apply Finset.card_le_card
    intro x hx
    simp only [Finset.mem_biUnion, Finset.mem_inter] at hx
    obtain ⟨_, _, h, _⟩ := hx
    exact h
  · intro a ha c hc hac
    rw [Function.onFun, Finset.disjoint_left]
    intro x hx hy
    rw [Finset.mem_inter, Box3.mem_pts, Box3.mem_pts] at hx hy
    exact hac (hd a (by simpa using ha) c (by simpa using hc) _ _ _ hx.2 hy.2)

/-- Sum of the sizes of all messages that a rank sends. -/
theorem sendEnts_sum {P : Nat} {me : Nat} {b : Box3} {bs : Nat → Box3} :
    ((sendEnts (α := α) dim3 P me 2 b bs).map SEnt.size).sum =
      ((procLoop P P me).map fun p => 2 * ((b.pts ∩ (bs p).pts).card : Int)).sum := by
  unfold sendEnts
  induction procLoop P P me with
  | nil => rfl
  | cons p l ih =>
    rcases collide3_pts b (bs p) with ⟨h1, h2⟩ | ⟨ov, h1, _, h3⟩
    · have h1' : (dim3 (α := α)).collide b (bs p) = none := h1
      rw [List.filterMap_cons_none (by simp [h1']), ih, List.map_cons, List.sum_cons, h2]
      simp
    · have h1' : (dim3 (α := α)).collide b (bs p) = some ov := h1
      rw [List.filterMap_cons_some (by rw [h1']; rfl), List.map_cons, List.sum_cons, ih, List.map_cons,
        List.sum_cons]
      congr 1

theorem recvEntsFrom_sum {b : Box3} {bs : Nat → Box3} (permute : Int) (l : List Nat) (x : Int) :
    ((recvEntsFrom (α := α) dim3 permute 2 b bs l x).map REnt.size).sum =
      (l.map fun p => 2 * ((b.pts ∩ (bs p).pts).card : Int)).sum := by
  induction l generalizing x with
  | nil => rfl
  | cons p l ih =>
    rcases collide3_pts b (bs p) with ⟨h1, h2⟩ | ⟨ov, h1, _, h3⟩
    · have h1' : (dim3 (α := α)).collide b (bs p) = none := h1
      rw [recvEntsFrom]
      simp only [h1']
      rw [ih, List.map_cons, List.sum_cons, h2]
      simp
    · have h1' : (dim3 (α := α)).collide b (bs p) = some ov := h1
      rw [recvEntsFrom]
      simp only [h1']
      rw [List.map_cons, List.sum_cons, ih, List.map_cons, List.sum_cons]
      congr 1

theorem procLoop_sum_le {P me : Nat} (hme : me < P) {b : Box3} {bs : Nat → Box3} (hd : Disjoint3 P bs) :
    ((procLoop P P me).map fun p => 2 * ((b.pts ∩ (bs p).pts).card : Int)).sum ≤ 2 * b.count := by
  rw [((procLoop_perm P me hme).map _).sum_eq]
  have e : ((List.range P).map fun p => 2 * ((b.pts ∩ (bs p).pts).card : Int)).sum =
      allSum P fun p => 2 * ((b.pts ∩ (bs p).pts).card : Int) := rfl
  rw [e, allSum_eq, ← Finset.mul_sum, ← Box3.card_pts]
  have := sum_inter_le (b := b) hd
  have h2 : (∑ p ∈ Finset.range P, ((b.pts ∩ (bs p).pts).card : Int)) ≤ (b.pts.card : Int) := by
    exact_mod_cast this
  linarith

theorem foldl_max_le {l : List Int} {z s : Int} (hs : s ≤ z) (h : ∀ x ∈ l, x ≤ z) : l.foldl max s ≤ z := by
  induction l generalizing s with
  | nil => exact hs
  | cons x l ih =>
    exact ih (max_le hs (h x (by simp))) (fun y hy => h y (by simp [hy]))

/-- Buffers of the size of the boxes are always enough for a remap. -/
theorem remapSetup_sizes {P me : Nat} (hme : me < P) {ins outs : Nat → Box3} (hi : Disjoint3 P ins)
    (ho : Disjoint3 P outs) (hp : (outs me).Proper) {permute packflag : Int} {coll : Bool}
    {o : RemapObj α PackPlan3} (h : remapSetup dim3 P me ins outs 2 permute packflag coll = some o) :
    o.sendsize ≤ 2 * (ins me).count ∧ o.recvsize ≤ 2 * (outs me).count := by
  unfold remapSetup at h
  dsimp only at h
  cases coll with
  | true =>
    rw [if_pos rfl, Option.map_eq_some_iff] at h
    obtain ⟨s, _, rfl⟩ := h
    dsimp only
    refine ⟨?_, ?_⟩
    · rw [sendEnts_sum]
      exact procLoop_sum_le hme ho
    · unfold recvEnts
      rw [recvEntsFrom_sum]
      exact procLoop_sum_le hme hi
  | false =>
    rw [if_neg (by decide)] at h
    cases h
    dsimp only
    refine ⟨foldl_max_le (by have := count_nonneg (ins me); omega) ?_, ?_⟩
    · intro x hx
      obtain ⟨e, he, rfl⟩ := List.mem_map.mp hx
      have he := List.mem_of_mem_take he
      unfold sendEnts at he
      obtain ⟨p, hp, he⟩ := List.mem_filterMap.mp he
      rw [Option.map_eq_some_iff] at he
      obtain ⟨ov, h1, rfl⟩ := he
      dsimp only
      rcases collide3_pts (ins me) (outs p) with ⟨h2, _⟩ | ⟨ov', h2, _, h3⟩
      · have h2' : (dim3 (α := α)).collide (ins me) (outs p) = none := h2
        rw [h2'] at h1; cases h1
      · have h2' : (dim3 (α := α)).collide (ins me) (outs p) = some ov' := h2
        rw [h2'] at h1
        obtain rfl := Option.some.inj h1
        change size3 2 ov' ≤ _
        rw [h3, ← Box3.card_pts]
        have := Finset.card_le_card (Finset.inter_subset_left (s₁ := (ins me).pts) (s₂ := (outs p).pts))
        have h4 : (((ins me).pts ∩ (outs p).pts).card : Int) ≤ ((ins me).pts.card : Int) := by exact_mod_cast this
        linarith
    · change size3 2 (outs me) ≤ _
      rw [← vol_eq_count hp]
      unfold size3 Box3.vol
      linarith [mul_assoc (2 * (outs me).isize) (outs me).jsize (outs me).ksize,
        mul_assoc 2 (outs me).isize (outs me).jsize,
        mul_assoc 2 ((outs me).isize * (outs me).jsize) (outs me).ksize]

/-! ## Larger buffers -/

/-- The same object, but with larger values of `sendsize` and `recvsize`. -/
def Fft3.enlarge (f : Fft3 α) : Fft3 α :=
  { f with sendsize := max f.sendsize (2 * f.fftsize), recvsize := max f.recvsize (2 * f.fftsize) }

theorem rotBox_proper {p : Int} {b : Box3} (h : b.Proper) : (rotBox p b).Proper := by
  obtain ⟨h1, h2, h3⟩ := h
  unfold Box3.isize at h1
  unfold Box3.jsize at h2
  unfold Box3.ksize at h3
  unfold rotBox Box3.Proper Box3.isize Box3.jsize Box3.ksize
  split_ifs <;> exact ⟨by assumption, by assumption, by assumption⟩

namespace Ready

variable {c : Create} {f : Nat → Fft3 ℝ} (R : Ready c f)
include R

theorem enlarge : Ready c fun r => (f r).enlarge :=
  { args := R.args, st := R.st, made := R.made, grids := R.grids, same := R.same, prefast := R.prefast, fastmid := R.fastmid
    midslow := R.midslow, postslow := R.postslow, preslow := R.preslow, slowmid := R.slowmid
    midfast := R.midfast, postfast := R.postfast, insize := R.insize, outsize := R.outsize
    fftsize := R.fftsize, norm := R.norm, normnum := R.normnum
    planFast := R.planFast, planMid := R.planMid, planSlow := R.planSlow
    fwd := fun r hr x hx => ⟨le_trans (R.fwd r hr x hx).1 (le_max_left _ _),
      le_trans (R.fwd r hr x hx).2 (le_max_left _ _)⟩
    inv := fun hs r hr x hx => ⟨le_trans (R.inv hs r hr x hx).1 (le_max_left _ _),
      le_trans (R.inv hs r hr x hx).2 (le_max_left _ _)⟩ }

theorem midfastR2_sizes (hx : c.st.exchange ≠ 0) {r : Nat} (hr : r < c.P) :
    ((c.on r).midfastR2 (α := ℝ)).obj.sendsize ≤ 2 * (c.brick r).count ∧
      ((c.on r).midfastR2 (α := ℝ)).obj.recvsize ≤ 2 * (c.fast r).count := by
  have hn := newRemap_eq (α := ℝ) (c := c.on r) R.st hr 10 (c.on r).bp (fun r => jki (c.brick r))
    (fun r => jki (c.fast r)) (permute := 2) (by decide)
  unfold newRemap at hn
  rw [Option.map_eq_some_iff] at hn
  obtain ⟨o, ho, hn⟩ := hn
  have e : ((c.on r).midfastR2 (α := ℝ)).obj = o := by
    change (mkRemap (α := ℝ) (c.on r) 10 (c.on r).bp (fun r => jki (c.brick r))
      (fun r => jki (c.fast r)) 2).obj = o
    rw [← hn]
  rw [e]
  have h1 : ∀ b : Box3, jki b = rotBox 1 b := fun _ => rfl
  have key := remapSetup_sizes (P := c.P) (me := r) hr (ins := fun r => jki (c.brick r))
    (outs := fun r => jki (c.fast r)) (rotBox_disjoint 1 (R.brick_tiles hx).disjoint)
    (rotBox_disjoint 1 R.fast_tiles.disjoint) (by
      change (jki (c.fast r)).Proper
      rw [h1]; exact rotBox_proper (R.fast_proper hr)) ho
  simp only [h1, rotBox_count] at key
  exact key

theorem enlarge_fits : ExtraFits c fun r => (f r).enlarge := by
  intro hx r hr
  obtain ⟨h1, h2⟩ := R.midfastR2_sizes hx hr
  have h3 := R.size_brick hx hr
  have h4 := R.size_fast hr
  exact ⟨le_trans h1 (le_trans (by omega) (le_max_right _ _)),
    le_trans h2 (le_trans (by omega) (le_max_right _ _))⟩

end Ready

/-! ## Arrays with given contents -/

open Classical in
/-- The array that holds `X` in the box `b` and zeros up to `n` complex numbers. -/
def arrayOf (p : Int) (b : Box3) (X : Grid3) (n : Int) : Mem ℝ := fun x =>
  if 0 ≤ x ∧ x < 2 * n then
    if h : ∃ t : Int × Int × Int × Int, b.Has t.1 t.2.1 t.2.2.1 ∧ (t.2.2.2 = 0 ∨ t.2.2.2 = 1) ∧
        addr3 p b 2 t.1 t.2.1 t.2.2.1 t.2.2.2 = x then
      some (if h.choose.2.2.2 = 0 then (X h.choose.1 h.choose.2.1 h.choose.2.2.1).re
        else (X h.choose.1 h.choose.2.1 h.choose.2.2.1).im)
    else some 0
  else none

theorem arrayOf_holds {p : Int} {b : Box3} {X : Grid3} {n : Int} (hn : b.count ≤ n) :
    HoldsBox p b X (arrayOf p b X n) := by
  intro i j k hh
  have hc := Box3.count_of_has hh
  have main : ∀ q : Int, q = 0 ∨ q = 1 → arrayOf p b X n (addr3 p b 2 i j k q) =
      some (if q = 0 then (X i j k).re else (X i j k).im) := by
    intro q hq
    have hq' : 0 ≤ q ∧ q < 2 := by omega
    have hr := addr3_range (permute := p) (nqty := 2) hh hq'
    have hex : ∃ t : Int × Int × Int × Int, b.Has t.1 t.2.1 t.2.2.1 ∧ (t.2.2.2 = 0 ∨ t.2.2.2 = 1) ∧
        addr3 p b 2 t.1 t.2.1 t.2.2.1 t.2.2.2 = addr3 p b 2 i j k q := ⟨(i, j, k, q), hh, hq, rfl⟩
    unfold arrayOf
    rw [if_pos (by omega), dif_pos hex]
    obtain ⟨g1, g2, g3⟩ := hex.choose_spec
    obtain ⟨e1, e2, e3, e4⟩ := addr3_inj (permute := p) (nqty := 2) g1 (by omega) hh hq' g3
    rw [e1, e2, e3, e4]
  exact ⟨by simpa using main 0 (Or.inl rfl), by simpa using main 1 (Or.inr rfl)⟩

theorem arrayOf_accessible (p : Int) (b : Box3) (X : Grid3) (n : Int) :
    accessible (arrayOf p b X n) 0 (2 * n) := by
  intro x h0 h1
  unfold arrayOf
  rw [if_pos (by omega)]
  split_ifs <;> rfl

/-- Whatever is in the arrays, they hold some grid function. -/
theorem holds_some {P : Nat} {p : Int} {bs : Nat → Box3} {n : Nat} {m : Nat → LMem ℝ}
    (hd : Disjoint3 P bs) (ha : ∀ r < P, accessible ((m r).ub n) 0 (2 * (bs r).count)) :
    ∃ X, Holds P p bs n X m := by
  classical
  refine ⟨fun i j k => if h : ∃ r, r < P ∧ (bs r).Has i j k then
    ⟨((m h.choose).ub n (addr3 p (bs h.choose) 2 i j k 0)).getD 0,
     ((m h.choose).ub n (addr3 p (bs h.choose) 2 i j k 1)).getD 0⟩ else 0, ?_⟩
  intro r hr i j k hh
  have hex : ∃ r, r < P ∧ (bs r).Has i j k := ⟨r, hr, hh⟩
  have e : hex.choose = r := hd _ hex.choose_spec.1 _ hr i j k hex.choose_spec.2 hh
  simp only [dif_pos hex, e]
  have hc := Box3.count_of_has hh
  have main : ∀ q : Int, q = 0 ∨ q = 1 → ∃ v, (m r).ub n (addr3 p (bs r) 2 i j k q) = some v := by
    intro q hq
    have hr' := addr3_range (permute := p) (nqty := 2) (q := q) hh (by omega)
    exact Option.isSome_iff_exists.mp (ha r hr _ hr'.1 (by omega))
  obtain ⟨v, hv⟩ := main 0 (Or.inl rfl)
  obtain ⟨w, hw⟩ := main 1 (Or.inr rfl)
  rw [hv, hw]
  exact ⟨rfl, rfl⟩

end FftMpi
