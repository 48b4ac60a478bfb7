import Verif.PropsApart
import Verif.PropsOneRemap

/-!
# C51: exactly when the first and last stage of `only_one_remap` work with separate arrays
-/

noncomputable section

namespace FftMpi

open Finset

/-- The last number of a box that is not empty is the imaginary part of some point. -/
theorem Box3.last_point {b : Box3} (h : 0 < b.count) (p : Int) :
    ∃ i j k, b.Has i j k ∧ addr3 p b 2 i j k 1 = 2 * b.count - 1 := by
  have : b.pts.Nonempty := by
    rw [← Finset.card_pos]
    have := b.card_pts
    omega
  obtain ⟨⟨i, j, k⟩, hp⟩ := this
  have hh := (b.mem_pts _).mp hp
  have hc := Box3.count_of_has hh
  have s1 : 0 < b.isize := by have := hh.1; unfold Box3.isize; omega
  have s2 : 0 < b.jsize := by have := hh.2.1; unfold Box3.jsize; omega
  have s3 : 0 < b.ksize := by have := hh.2.2; unfold Box3.ksize; omega
  obtain ⟨i, j, k, q, hp, hq, he⟩ := addr3_surj (permute := p) (nqty := 1) (a := b.vol - 1) s1 s2 s3 (by decide) (by
    have : 0 < b.vol := by unfold Box3.vol; positivity
    omega)
  obtain rfl : q = 0 := by omega
  exact ⟨i, j, k, hp, by rw [addr3_two]; omega⟩

/-- The stages with one remap or none.  With separate arrays the first (last) stage moves the data into some layout of whole rows
(from such a layout) if and only if it has a remap: otherwise no layout of whole rows whatever makes the result right. -/
theorem C51_ends_iff {P : Nat} {a : Args3} {st : Settings} {f : Nat → Fft3 ℝ} (S : SetUp3 P a st f) (e : Bool) {k : Nat}
    (hk : k = 1 ∨ k = 4) {ai ao : Nat} (hio : ai ≠ ao) :
    (∃ L : Layouts3 P a, ∀ X m, Holds P (L.perm (k - 1)) (L.box (k - 1)) ai X m → Bufs P f ao m →
      ∃ m', Terminates e P (fun r => (f r).onlyOneRemap 1 k ai ao) m m' ∧ Holds P (L.perm k) (L.box k) ao X m') ↔
    OneRemap P a st k := by
  have d1 := S.args.fast.1; have d2 := S.args.mid.1; have d3 := S.args.slow.1
  constructor
  · rintro ⟨L, H⟩
    by_contra hno
    obtain ⟨m1, t1, h1⟩ := H _ _ (flatMem_holds P (L.perm (k - 1)) (L.box (k - 1)) (fun n => if n = ai then 0 else 1) ai)
      (flatMem_bufs _ _ _ _)
    rcases hk with rfl | rfl
    · obtain ⟨m2, t2, h2⟩ := C51_first_false S (h := hno) e hio (m := flatMem fun n => if n = ai then 0 else 1)
        (flatMem_bufs _ _ _ _) (flatMem_bufs _ _ _ _)
      have c1 := (L.tiles 1 (by decide)).sum_count (by omega) (by omega) (by omega)
      have c0 := S.args.tilesIn.sum_count (by omega) (by omega) (by omega)
      have hpos : 0 < a.nfast * a.nmid * a.nslow := Int.mul_pos (Int.mul_pos (by omega) (by omega)) (by omega)
      obtain ⟨r, hr, hlt⟩ : ∃ r < P, (a.ins r).count < 2 * (L.box 1 r).count := by
        by_contra hc
        push Not at hc
        have := Finset.sum_le_sum (s := range P) fun r hr => hc r (mem_range.mp hr)
        rw [← Finset.mul_sum, c0, c1] at this
        omega
      have hc0 := (a.ins r).card_pts
      obtain ⟨i, j, k, hh, hx⟩ := Box3.last_point (b := L.box 1 r) (by omega) (L.perm 1)
      have g := (h1 r hr i j k hh).2
      rw [← t1.agree t2 r hr, h2 r hr, if_neg (by rw [boxSize_eq_count (S.args.properIn r hr).1]; omega)] at g
      simp [flatMem, hio.symm] at g
    · obtain ⟨m2, t2, h2⟩ := C51_last_false S hno e ai ao (flatMem fun n => if n = ai then 0 else 1)
      obtain ⟨r, hr, hh⟩ := (L.tiles 4 le_rfl).owner 0 0 0 ⟨le_rfl, by omega⟩ ⟨le_rfl, by omega⟩ ⟨le_rfl, by omega⟩
      have g := (h1 r hr 0 0 0 hh).2
      rw [← t1.agree t2 r hr, h2 r hr] at g
      simp [flatMem, hio.symm] at g
  · intro h
    obtain ⟨L, H⟩ := C51_one_remap_partial S
    refine ⟨L, fun X m hX hb => ?_⟩
    obtain ⟨m', t, h', _⟩ := (H e k (by omega) (by omega) ai ao (.inr h) X m hb).1 hX 1 (.inl rfl)
    exact ⟨m', t, h'⟩

/-- If every rank owns whole rows of the input, the last stage of a transform back does nothing at all, also for separate arrays
(if the layouts are different; otherwise the stages back are those forward). -/
theorem C51_back_first_false {P : Nat} {a : Args3} {st : Settings} {f : Nat → Fft3 ℝ} (S : SetUp3 P a st f)
    (hs : ¬ SameLayout P a) (h : ¬ SplitRows P a) (e : Bool) (ai ao : Nat) (m : Nat → LMem ℝ) :
    ∃ m', Terminates e P (fun r => (f r).onlyOneRemap (-1) 1 ai ao) m m' ∧ ∀ r < P, (m' r).ub ao = (m r).ub ao := by
  obtain ⟨c, rfl, rfl, rfl, _, R⟩ := S.ready
  have hpre : preflag c.P c.a = false := by
    rw [← Bool.not_eq_true]
    exact fun k => h (preflag_iff.mp k)
  have hsame : inoutSame c.P c.a = false := by
    rw [← Bool.not_eq_true]
    exact fun k => hs (R.same_layout k)
  refine ⟨m, ((Step.nil m (size := fsz f) (ao := ao)).congr fun r hr => ?_).ok.terminates, fun _ _ => rfl⟩
  have : preflag (c.on r).P (c.on r).a = false := hpre
  unfold Fft3.onlyOneRemap
  rw [if_neg (by rw [R.same r hr, hsame]; simp), if_neg (by norm_num), if_neg (by norm_num), if_neg (by norm_num), if_pos rfl,
    R.postfast r hr, hsame]
  simp [Create.postfastO, this, remapIf]

/-- If every rank owns whole columns of the output and `permute = 2`, the first stage of a transform back with separate arrays
copies `outsize` real numbers, although the data has `outsize` complex numbers. -/
theorem C51_back_last_false {P : Nat} {a : Args3} {st : Settings} {f : Nat → Fft3 ℝ} (S : SetUp3 P a st f)
    (hs : ¬ SameLayout P a) (h : ¬ SplitCols P a) (e : Bool) {ai ao : Nat} (hio : ai ≠ ao) {m : Nat → LMem ℝ}
    (hbi : Bufs P f ai m) (hb : Bufs P f ao m) : ∃ m', Terminates e P (fun r => (f r).onlyOneRemap (-1) 4 ai ao) m m' ∧
      ∀ r < P, ∀ x, (m' r).ub ao x = if 0 ≤ x ∧ x < boxSize (a.outs r) then (m r).ub ai x else (m r).ub ao x := by
  obtain ⟨c, rfl, rfl, rfl, _, R⟩ := S.ready
  have hpost : postflag c.P c.a c.g = false := (postflag_of_not_split h).2
  have hsame : inoutSame c.P c.a = false := by
    rw [← Bool.not_eq_true]
    exact fun k => hs (R.same_layout k)
  obtain ⟨m1, s1, h1⟩ := Ready.copy_any (c := c) (f := f) (m := m) e (fun r => (f r).outsize) (ai := ai)
    (ao := ao) (fun r hr => (R.outsize_range hr).1) (fun r hr => (R.outsize_range hr).2) hbi.data hb.data
  refine ⟨m1, (s1.congr fun r hr => ?_).ok.terminates, fun r hr x => ?_⟩
  · have : postflag (c.on r).P (c.on r).a (c.on r).g = false := hpost
    unfold Fft3.onlyOneRemap
    rw [if_neg (by rw [R.same r hr, hsame]; simp), if_pos rfl, R.preslow r hr, hsame]
    simp [Create.preslowO, this, remapOrCopy, hio]
  · rw [h1 r hr x, R.outsize r hr]

/-- The same for the stages back, if input and output layout are different (otherwise they are the stages forward), with the room of
C25. -/
theorem C51_back_ends_iff {P : Nat} {a : Args3} {st : Settings} {f : Nat → Fft3 ℝ} (S : SetUp3 P a st f)
    (hs : ¬ SameLayout P a) (e : Bool) {k : Nat} (hk : k = 1 ∨ k = 4) {ai ao : Nat} (hio : ai ≠ ao) :
    (∃ L : Layouts3 P a, ∀ X m, Holds P (L.perm k) (L.box k) ai X m → Bufs P f ao m → RoomBack P a st m →
      ∃ m', Terminates e P (fun r => (f r).onlyOneRemap (-1) k ai ao) m m' ∧ Holds P (L.perm (k - 1)) (L.box (k - 1)) ao X m') ↔
    OneRemap P a st k := by
  have d1 := S.args.fast.1; have d2 := S.args.mid.1; have d3 := S.args.slow.1
  constructor
  · rintro ⟨L, H⟩
    by_contra hno
    obtain ⟨m1, t1, h1⟩ := H _ _ (flatMem_holds P (L.perm k) (L.box k) (fun n => if n = ai then 0 else 1) ai)
      (flatMem_bufs _ _ _ _) (S.room fun _ _ => ⟨fun _ _ _ => rfl, fun _ _ _ => rfl⟩)
    rcases hk with rfl | rfl
    · obtain ⟨m2, t2, h2⟩ := C51_back_first_false S hs hno e ai ao (flatMem fun n => if n = ai then 0 else 1)
      obtain ⟨r, hr, hh⟩ := (L.tiles 0 (by decide)).owner 0 0 0 ⟨le_rfl, by omega⟩ ⟨le_rfl, by omega⟩ ⟨le_rfl, by omega⟩
      have g := (h1 r hr 0 0 0 hh).2
      rw [← t1.agree t2 r hr, h2 r hr] at g
      simp [flatMem, hio.symm] at g
    · obtain ⟨m2, t2, h2⟩ := C51_back_last_false S hs (h := hno) e hio (m := flatMem fun n => if n = ai then 0 else 1)
        (flatMem_bufs _ _ _ _) (flatMem_bufs _ _ _ _)
      have c1 := (L.tiles 3 (by decide)).sum_count (by omega) (by omega) (by omega)
      have c0 := S.args.tilesOut.sum_count (by omega) (by omega) (by omega)
      have hpos : 0 < a.nfast * a.nmid * a.nslow := Int.mul_pos (Int.mul_pos (by omega) (by omega)) (by omega)
      obtain ⟨r, hr, hlt⟩ : ∃ r < P, (a.outs r).count < 2 * (L.box 3 r).count := by
        by_contra hc
        push Not at hc
        have := Finset.sum_le_sum (s := range P) fun r hr => hc r (mem_range.mp hr)
        rw [← Finset.mul_sum, c0, c1] at this
        omega
      have hc0 := (a.outs r).card_pts
      obtain ⟨i, j, k, hh, hx⟩ := Box3.last_point (b := L.box 3 r) (by omega) (L.perm 3)
      have g : (m1 r).ub ao (addr3 (L.perm 3) (L.box 3 r) 2 i j k 1) = _ := (h1 r hr i j k hh).2
      rw [← t1.agree t2 r hr, h2 r hr, if_neg (by rw [boxSize_eq_count (S.args.properOut r hr)]; omega)] at g
      simp [flatMem, hio.symm] at g
  · intro h
    obtain ⟨L, H⟩ := C51_one_remap_partial S
    refine ⟨L, fun X m hX hb hr => ?_⟩
    obtain ⟨m', t, h', _⟩ := (H e k (by omega) (by omega) ai ao (.inr h) X m hb).2 hX hr hs
    exact ⟨m', t, h'⟩

/-! ## 2d -/

theorem Box2.last_point {b : Box2} (h : 0 < b.count) {p : Int} (hp : p = 0 ∨ p = 1) :
    ∃ i j, b.Has i j ∧ addr2 p b 2 i j 1 = 2 * b.count - 1 := by
  obtain ⟨i, j, k, hh, hx⟩ := Box3.last_point (b := b.lift) (by rw [Box2.lift_count]; exact h) p
  rw [Box2.lift_has] at hh
  rw [Box2.lift_count] at hx
  obtain ⟨hh, rfl⟩ := hh
  exact ⟨i, j, hh, by rw [← hx]; exact (addr2_lift hp _ _ _ _ _).symm⟩

/-- The stages with one remap or none.  With separate arrays the first (last) stage moves the data into some layout of whole rows
(from such a layout) if and only if it has a remap: otherwise no layout of whole rows whatever makes the result right. -/
theorem C51_ends_iff_2d {w : Int} {P : Nat} {a : Args2} {st : Settings} {f : Nat → Fft2 ℝ} (S : SetUp2 w P a st f) (e : Bool) {k : Nat}
    (hk : k = 1 ∨ k = 3) {ai ao : Nat} (hio : ai ≠ ao) :
    (∃ L : Layouts2 P a, ∀ X m, Holds2 P (L.perm (k - 1)) (L.box (k - 1)) ai X m → Bufs2 P f ao m →
      ∃ m', Terminates e P (fun r => (f r).onlyOneRemap 1 k ai ao) m m' ∧ Holds2 P (L.perm k) (L.box k) ao X m') ↔
    OneRemap2 P a st k := by
  have d1 := S.args.fast.1; have d3 := S.args.slow.1
  constructor
  · rintro ⟨L, H⟩
    by_contra hno
    obtain ⟨m1, t1, h1⟩ := H _ _ (flatMem_holds2 P (L.perm (k - 1)) (L.box (k - 1)) (fun n => if n = ai then 0 else 1) ai)
      (flatMem_bufs2 _ _ _ _)
    rcases hk with rfl | rfl
    · obtain ⟨m2, t2, h2⟩ := C51_first_false_2d S (h := hno) e hio (m := flatMem fun n => if n = ai then 0 else 1)
        (flatMem_bufs2 _ _ _ _) (flatMem_bufs2 _ _ _ _)
      have c1 := (L.tiles 1 (by decide)).sum_count (by omega) (by omega)
      have c0 := S.args.tilesIn.sum_count (by omega) (by omega)
      have hpos : 0 < a.nfast * a.nslow := Int.mul_pos (by omega) (by omega)
      obtain ⟨r, hr, hlt⟩ : ∃ r < P, (a.ins r).count < 2 * (L.box 1 r).count := by
        by_contra hc
        push Not at hc
        have := Finset.sum_le_sum (s := range P) fun r hr => hc r (mem_range.mp hr)
        rw [← Finset.mul_sum, c0, c1] at this
        omega
      have hc0 := (a.ins r).lift.card_pts
      rw [Box2.lift_count] at hc0
      obtain ⟨i, j, hh, hx⟩ := Box2.last_point (b := L.box 1 r) (by omega) (p := L.perm 1) (.inl L.order.1)
      have g := (h1 r hr i j hh).2
      rw [← t1.agree t2 r hr, h2 r hr, if_neg (by rw [boxSize2_eq_count (S.args.properIn r hr).1]; omega)] at g
      simp [flatMem, hio.symm] at g
    · obtain ⟨m2, t2, h2⟩ := C51_last_false_2d S hno e ai ao (flatMem fun n => if n = ai then 0 else 1)
      obtain ⟨r, hr, hh⟩ := (L.tiles 3 le_rfl).owner 0 0 ⟨le_rfl, by omega⟩ ⟨le_rfl, by omega⟩
      have g := (h1 r hr 0 0 hh).2
      rw [← t1.agree t2 r hr, h2 r hr] at g
      simp [flatMem, hio.symm] at g
  · intro h
    obtain ⟨L, H⟩ := C51_one_remap_2d_partial S
    refine ⟨L, fun X m hX hb => ?_⟩
    obtain ⟨m', t, h', _⟩ := (H e k (by omega) (by omega) ai ao (.inr h) X m hb).1 hX 1 (.inl rfl)
    exact ⟨m', t, h'⟩

/-- If every rank owns whole rows of the input, the last stage of a transform back does nothing at all, also for separate arrays
(if the layouts are different; otherwise the stages back are those forward). -/
theorem C51_back_first_false_2d {w : Int} {P : Nat} {a : Args2} {st : Settings} {f : Nat → Fft2 ℝ} (S : SetUp2 w P a st f)
    (hs : ¬ SameLayout2 P a) (h : ¬ SplitRows2 P a) (e : Bool) (ai ao : Nat) (m : Nat → LMem ℝ) :
    ∃ m', Terminates e P (fun r => (f r).onlyOneRemap (-1) 1 ai ao) m m' ∧ ∀ r < P, (m' r).ub ao = (m r).ub ao := by
  obtain ⟨c, rfl, rfl, rfl, rfl, _, R⟩ := S.ready
  have hpre : preflag2 c.P c.a = false := by
    rw [← Bool.not_eq_true]
    exact fun k => h (preflag2_iff.mp k)
  have hsame : inoutSame2 c.P c.a = false := by
    rw [← Bool.not_eq_true]
    exact fun k => hs (R.same_layout k)
  refine ⟨m, ((Step.nil m (size := fsz2 f) (ao := ao)).congr fun r hr => ?_).ok.terminates, fun _ _ => rfl⟩
  have : preflag2 (c.on r).P (c.on r).a = false := hpre
  unfold Fft2.onlyOneRemap
  rw [if_neg (by rw [R.same r hr, hsame]; simp), if_neg (by norm_num), if_neg (by norm_num), if_pos rfl,
    R.postfast r hr, hsame]
  simp [Create2.postfastO, this, remapIf2]

/-- If every rank owns whole columns of the output and `permute = 1`, the first stage of a transform back with separate arrays
copies `outsize` real numbers, although the data has `outsize` complex numbers. -/
theorem C51_back_last_false_2d {w : Int} {P : Nat} {a : Args2} {st : Settings} {f : Nat → Fft2 ℝ} (S : SetUp2 w P a st f)
    (hs : ¬ SameLayout2 P a) (h : ¬ SplitCols2 P a) (e : Bool) {ai ao : Nat} (hio : ai ≠ ao) {m : Nat → LMem ℝ}
    (hbi : Bufs2 P f ai m) (hb : Bufs2 P f ao m) : ∃ m', Terminates e P (fun r => (f r).onlyOneRemap (-1) 3 ai ao) m m' ∧
      ∀ r < P, ∀ x, (m' r).ub ao x = if 0 ≤ x ∧ x < boxSize2 (a.outs r) then (m r).ub ai x else (m r).ub ao x := by
  obtain ⟨c, rfl, rfl, rfl, rfl, _, R⟩ := S.ready
  have hpost : postflag2 c.P c.a = false := (postflag2_of_not_split h).2
  have hsame : inoutSame2 c.P c.a = false := by
    rw [← Bool.not_eq_true]
    exact fun k => hs (R.same_layout k)
  obtain ⟨m1, s1, h1⟩ := Ready2.copy_any (c := c) (f := f) (m := m) e (fun r => (f r).outsize) (ai := ai)
    (ao := ao) (fun r hr => (R.outsize_range hr).1) (fun r hr => (R.outsize_range hr).2) hbi.data hb.data
  refine ⟨m1, (s1.congr fun r hr => ?_).ok.terminates, fun r hr x => ?_⟩
  · have : postflag2 (c.on r).P (c.on r).a = false := hpost
    unfold Fft2.onlyOneRemap
    rw [if_neg (by rw [R.same r hr, hsame]; simp), if_pos rfl, R.preslow r hr, hsame]
    simp [Create2.preslowO, this, remapOrCopy2, hio]
  · rw [h1 r hr x, R.outsize r hr]

/-- The same for the stages back, if input and output layout are different (otherwise they are the stages forward). -/
theorem C51_back_ends_iff_2d {w : Int} {P : Nat} {a : Args2} {st : Settings} {f : Nat → Fft2 ℝ} (S : SetUp2 w P a st f)
    (hs : ¬ SameLayout2 P a) (e : Bool) {k : Nat} (hk : k = 1 ∨ k = 3) {ai ao : Nat} (hio : ai ≠ ao) :
    (∃ L : Layouts2 P a, ∀ X m, Holds2 P (L.perm k) (L.box k) ai X m → Bufs2 P f ao m →
      ∃ m', Terminates e P (fun r => (f r).onlyOneRemap (-1) k ai ao) m m' ∧ Holds2 P (L.perm (k - 1)) (L.box (k - 1)) ao X m') ↔
    OneRemap2 P a st k := by
  have d1 := S.args.fast.1; have d3 := S.args.slow.1
  constructor
  · rintro ⟨L, H⟩
    by_contra hno
    obtain ⟨m1, t1, h1⟩ := H _ _ (flatMem_holds2 P (L.perm k) (L.box k) (fun n => if n = ai then 0 else 1) ai)
      (flatMem_bufs2 _ _ _ _)
    rcases hk with rfl | rfl
    · obtain ⟨m2, t2, h2⟩ := C51_back_first_false_2d S hs hno e ai ao (flatMem fun n => if n = ai then 0 else 1)
      obtain ⟨r, hr, hh⟩ := (L.tiles 0 (by decide)).owner 0 0 ⟨le_rfl, by omega⟩ ⟨le_rfl, by omega⟩
      have g := (h1 r hr 0 0 hh).2
      rw [← t1.agree t2 r hr, h2 r hr] at g
      simp [flatMem, hio.symm] at g
    · obtain ⟨m2, t2, h2⟩ := C51_back_last_false_2d S hs (h := hno) e hio (m := flatMem fun n => if n = ai then 0 else 1)
        (flatMem_bufs2 _ _ _ _) (flatMem_bufs2 _ _ _ _)
      have c1 := (L.tiles 2 (by decide)).sum_count (by omega) (by omega)
      have c0 := S.args.tilesOut.sum_count (by omega) (by omega)
      have hpos : 0 < a.nfast * a.nslow := Int.mul_pos (by omega) (by omega)
      obtain ⟨r, hr, hlt⟩ : ∃ r < P, (a.outs r).count < 2 * (L.box 2 r).count := by
        by_contra hc
        push Not at hc
        have := Finset.sum_le_sum (s := range P) fun r hr => hc r (mem_range.mp hr)
        rw [← Finset.mul_sum, c0, c1] at this
        omega
      have hc0 := (a.outs r).lift.card_pts
      rw [Box2.lift_count] at hc0
      obtain ⟨i, j, hh, hx⟩ := Box2.last_point (b := L.box 2 r) (by omega) (p := L.perm 2) (.inr L.order.2)
      have g : (m1 r).ub ao (addr2 (L.perm 2) (L.box 2 r) 2 i j 1) = _ := (h1 r hr i j hh).2
      rw [← t1.agree t2 r hr, h2 r hr, if_neg (by rw [boxSize2_eq_count (S.args.properOut r hr)]; omega)] at g
      simp [flatMem, hio.symm] at g
  · intro h
    obtain ⟨L, H⟩ := C51_one_remap_2d_partial S
    refine ⟨L, fun X m hX hb => ?_⟩
    obtain ⟨m', t, h', _⟩ := (H e k (by omega) (by omega) ai ao (.inr h) X m hb).2 hX hs
    exact ⟨m', t, h'⟩

/-- Both sides of the equivalences occur. -/
example : (∃ f, SetUp3 2 (demo3 1) ⟨2, 1, 2⟩ f) ∧ ¬ OneRemap 2 (demo3 1) ⟨2, 1, 2⟩ 1 ∧ OneRemap 2 (demo3 1) ⟨2, 1, 2⟩ 4 ∧
    (∃ f, SetUp3 2 crossArgs ⟨2, 1, 2⟩ f) ∧ OneRemap 2 crossArgs ⟨2, 1, 2⟩ 1 ∧
    (∃ f, SetUp3 2 (demo3 2) ⟨2, 1, 2⟩ f) ∧ ¬ OneRemap 2 (demo3 2) ⟨2, 1, 2⟩ 4 := by
  refine ⟨setUp3_exists (demo3_valid 1 (by decide)) (by simp [Settings.Valid]), fun ⟨r, _, h⟩ => (by simp [demo3] at h),
    Or.inl (by simp [demo3]), setUp3_exists crossArgs_valid (by simp [Settings.Valid]), ⟨0, by decide, by simp [crossArgs]⟩,
    setUp3_exists (demo3_valid 2 (by decide)) (by simp [Settings.Valid]), ?_⟩
  rintro (h | ⟨r, hr, h⟩)
  · exact h rfl
  · exact h ⟨rfl, rfl⟩

example : (∃ f, SetUp2 1 2 (plane2 1) ⟨2, 0, 2⟩ f) ∧ ¬ OneRemap2 2 (plane2 1) ⟨2, 0, 2⟩ 1 ∧
    ¬ OneRemap2 2 (plane2 1) ⟨2, 0, 2⟩ 3 ∧ (∃ f, SetUp2 1 2 crossArgs2 ⟨2, 0, 2⟩ f) ∧
    OneRemap2 2 crossArgs2 ⟨2, 0, 2⟩ 1 ∧ OneRemap2 2 crossArgs2 ⟨2, 0, 2⟩ 3 := by
  have hst : (⟨2, 0, 2⟩ : Settings).Valid2 1 := by simp [Settings.Valid2, FlagOk2]
  refine ⟨setUp2_exists (plane2_valid 1 (by decide)) hst, fun ⟨r, _, h⟩ => (by simp [plane2] at h), ?_,
    setUp2_exists crossArgs2_valid hst, ⟨0, by decide, by simp [crossArgs2]⟩, Or.inl (by simp [crossArgs2])⟩
  rintro (h | ⟨r, hr, h⟩)
  · exact h rfl
  · exact h ⟨rfl, rfl⟩

/-- Examples for the stages back: different layouts, stages with and without a remap. -/
example : ¬ SameLayout 2 (demo3 1) ∧ ¬ OneRemap 2 (demo3 1) ⟨2, 1, 2⟩ 1 ∧ OneRemap 2 (demo3 1) ⟨2, 1, 2⟩ 4 ∧
    ¬ SameLayout 2 (demo3 2) ∧ ¬ OneRemap 2 (demo3 2) ⟨2, 1, 2⟩ 4 := by
  refine ⟨fun h => absurd h.1 (by simp [demo3]), fun ⟨r, _, h⟩ => (by simp [demo3] at h), Or.inl (by simp [demo3]),
    fun h => absurd h.1 (by simp [demo3]), ?_⟩
  rintro (h | ⟨r, hr, h⟩)
  · exact h rfl
  · exact h ⟨rfl, rfl⟩

example : ¬ SameLayout2 2 (plane2 1) ∧ ¬ OneRemap2 2 (plane2 1) ⟨2, 0, 2⟩ 1 ∧ ¬ OneRemap2 2 (plane2 1) ⟨2, 0, 2⟩ 3 ∧
    ¬ SameLayout2 2 crossArgs2 ∧ OneRemap2 2 crossArgs2 ⟨2, 0, 2⟩ 1 ∧ OneRemap2 2 crossArgs2 ⟨2, 0, 2⟩ 3 := by
  refine ⟨fun h => absurd h.1 (by simp [plane2]), fun ⟨r, _, h⟩ => (by simp [plane2] at h), ?_, fun h => ?_,
    ⟨0, by decide, by simp [crossArgs2]⟩, Or.inl (by simp [crossArgs2])⟩
  · rintro (h | ⟨r, hr, h⟩)
    · exact h rfl
    · exact h ⟨rfl, rfl⟩
  · have := h.2 0 (by decide)
    simp [crossArgs2] at this

end FftMpi
