import Verif.DriverFlLemmas
import Verif.PropsDriverRun

/-!
# The passes of the test programs with rounding

The numbers in the array after any number of passes, and the numbers that `validate` returns.
-/

noncomputable section

namespace FftMpi

open Driver Finset

variable {ar : Arith} {rnd : ℝ → ℝ} {u v cc tiny big d : ℝ}

/-! ## Storing and comparing -/

theorem Driver.conv_near (R : RoundOK ar u tiny big) {s t V : ℝ} (h : s = t ∨ s = ar.conv t) (ht : |t| ≤ V) (hV : V ≤ big) :
    |s - t| ≤ u * (V + tiny) := by
  have u0 := R.u0
  have t0 := R.t0
  rcases h with rfl | rfl
  · rw [sub_self, abs_zero]
    have := (abs_nonneg _).trans ht
    positivity
  · exact (R.conv t (ht.trans hV)).trans (by gcongr)

theorem Driver.Largest.unique {n : Int} {w w0 : Mem ℝ} {x y : ℝ} (hx : Largest n w w0 x) (hy : Largest n w w0 y) :
    x = y := by
  have key : ∀ {x y : ℝ}, Largest n w w0 x → Largest n w w0 y → x ≤ y := by
    rintro x y ⟨_, _, hx⟩ ⟨hy0, hy, _⟩
    rcases hx with rfl | ⟨p, q, q0, h0, h1, h2, h3, rfl⟩
    · exact hy0
    · obtain ⟨q', q0', k1, k2, k3⟩ := hy p h0 h1
      rw [h2] at k1
      rw [h3] at k2
      cases k1
      cases k2
      exact k3
  exact le_antisymm (key hx hy) (key hy hx)

/-- Near the exact data. -/
theorem Driver.FillsFl.near (R : RoundOK ar u tiny big) {n : Int} {fill fillX : Mem ℝ → Option (Mem ℝ)} {tgt : Int → ℝ}
    (hf : FillsFl ar n fill tgt) (hx : Fills n fillX tgt) {w w1 : Mem ℝ} (hw : accessible w 0 (2 * n))
    (h1 : fillX w = some w1) (hb : ∀ x y, 0 ≤ x → x < 2 * n → w1 x = some y → |y| ≤ big) :
    ∃ w', fill w = some w' ∧ (∀ x, (x < 0 ∨ 2 * n ≤ x) → w' x = w x) ∧
      ∀ x, 0 ≤ x → x < 2 * n → ∃ y y', w1 x = some y ∧ w' x = some y' ∧ |y' - y| ≤ u * (|y| + tiny) := by
  obtain ⟨s, hs, hf⟩ := hf
  rw [hx w hw] at h1
  cases h1
  refine ⟨_, hf w hw, fun x h => if_neg (by omega), fun x h0 h1 => ⟨_, _, if_pos ⟨h0, h1⟩, if_pos ⟨h0, h1⟩, ?_⟩⟩
  exact conv_near R (hs x) le_rfl (hb x _ h0 h1 (if_pos ⟨h0, h1⟩))

theorem Driver.ChecksFl.near (R : RoundOK ar u tiny big) (hu : u ≤ 1) {n : Int} {check checkX : Mem ℝ → Option ℝ}
    {tgt : Int → ℝ} (hc : ChecksFl ar n check tgt) (hx : Checks n checkX tgt) {w : Mem ℝ} (hw : accessible w 0 (2 * n))
    {L : ℝ} (hL : checkX w = some L) (hb : L ≤ big) :
    ∃ eps, check w = some eps ∧ (1 - u) * L ≤ eps ∧ eps ≤ (1 + u) * L := by
  have e2 : ∀ x, 0 ≤ x → x < 2 * n → w x = some ((w x).getD 0) := by
    intro x ha hb
    have := hw x (by omega) (by omega)
    obtain ⟨y, hy⟩ := Option.isSome_iff_exists.mp this
    rw [hy]
    rfl
  have u0 := R.u0
  obtain ⟨L', k1, k2, k3, k4⟩ := hx w _ e2
  rw [hL] at k1
  cases k1
  obtain ⟨dd, eps, h1, h2, h3, h4, h5⟩ := hc w _ e2
  have key : ∀ x, 0 ≤ x → x < 2 * n → (1 - u) * |(w x).getD 0 - tgt x| ≤ dd x ∧ dd x ≤ (1 + u) * |(w x).getD 0 - tgt x| := by
    intro x hx0 hx1
    have hn := abs_nonneg ((w x).getD 0 - tgt x)
    rcases h1 x with h | h
    · rw [h]
      constructor <;> nlinarith
    · have q := R.dsub ((w x).getD 0) (tgt x) ((k3 x hx0 hx1).trans hb)
      have q1 := abs_sub_abs_le_abs_sub (ar.dsub ((w x).getD 0) (tgt x)) ((w x).getD 0 - tgt x)
      have q2 := abs_sub_abs_le_abs_sub ((w x).getD 0 - tgt x) (ar.dsub ((w x).getD 0) (tgt x))
      rw [abs_sub_comm ((w x).getD 0 - tgt x) (ar.dsub ((w x).getD 0) (tgt x))] at q2
      rw [h]
      constructor <;> linarith
  refine ⟨eps, h2, ?_, ?_⟩
  · rcases k4 with k | ⟨x, hx0, hx1, k⟩
    · rw [k, mul_zero]; exact h3
    · rw [k]
      exact (key x hx0 hx1).1.trans (h4 x hx0 hx1)
  · rcases h5 with h | ⟨x, hx0, hx1, h⟩
    · rw [h]; positivity
    · rw [h]
      exact (key x hx0 hx1).2.trans (by gcongr; exact k3 x hx0 hx1)

/-! ## The loop -/

theorem Args3.one_le_cycle2 {a : Args3} (u0 : 0 ≤ u) (v0 : 0 ≤ v) (hv : v < 1) (hd : 0 ≤ d) : 1 ≤ a.cycle2 u v d := by
  have h1 := a.fftErr2_nonneg u0 hd
  have h2 := one_le_normGrow u0 v0 hv
  unfold Args3.cycle2
  have h3 : 1 ≤ (1 + a.fftErr2 u d) ^ 2 := one_le_pow₀ (by linarith)
  have h4 : 1 ≤ (1 + a.fftErr2 u d) ^ 2 * normGrow u v := one_le_mul_of_one_le_of_one_le h3 h2
  exact one_le_mul_of_one_le_of_one_le h4 (by linarith)

theorem Args2.one_le_cycle2 {a : Args2} (u0 : 0 ≤ u) (v0 : 0 ≤ v) (hv : v < 1) (hd : 0 ≤ d) : 1 ≤ a.cycle2 u v d := by
  have h1 := a.fftErr2_nonneg u0 hd
  have h2 := one_le_normGrow u0 v0 hv
  unfold Args2.cycle2
  have h3 : 1 ≤ (1 + a.fftErr2 u d) ^ 2 := one_le_pow₀ (by linarith)
  have h4 : 1 ≤ (1 + a.fftErr2 u d) ^ 2 * normGrow u v := one_le_mul_of_one_le_of_one_le h3 h2
  exact one_le_mul_of_one_le_of_one_le h4 (by linarith)

theorem Step.resize {e : Bool} {P : Nat} {size size' : Nat → Int} {ao : Nat} {p : Nat → List (Instr ℝ)}
    {m m' : Nat → LMem ℝ} (h : Step e P size ao p m m') (hs : ∀ r < P, size r = size' r) : Step e P size' ao p m m' :=
  ⟨h.ok, h.dom, h.other, fun r hr x hx => h.frame r hr x (by rw [hs r hr]; exact hx)⟩

/-- The passes of the loop: the error grows by the same factor in each. -/
theorem Driver.loop3Fl_ok (R : RoundOK ar u tiny big) (T : TrigOK ar v cc tiny big) (hu : u ≤ 1 / 100)
    (hv : v ≤ 1 / 100) (ht : tiny ≤ 1 / 100) (hd : 0 ≤ d) {P : Nat} {a : Args3} {st : Settings} {f : Nat → Fft3 ℝ}
    (S : SetUp3F ar P a st f) (htw : a.TwiddlesNear ar d)
    (hio : ∀ r < P, (a.ins r).count ≤ (a.outs r).count) (e : Bool) (J J' : Nat → Nat → Nat → Junk) {mode : Nat}
    (hm : mode < 2) {X : Grid3} {m : Nat → LMem ℝ} (hX : Holds P 0 a.ins 0 X m) (hb : Bufs P f 0 m)
    (hr : RoomBack P a st m) {B : ℝ} (hB : EN a.pts tiny 1 B (at3 X) (at3 X)) (hNb : a.N ≤ big) (n : Nat)
    (hbig : ∀ k < n, 2 * (a.cycle2 u v d ^ k * (1 + a.fftErr2 u d) ^ 2) * (a.N * grown a.N tiny B k) ≤ big) :
    ∃ m' X', Step e P (fsz f) 0 (fun r => loop3Fl ar (f r) false mode (J r) (J' r) n) m m' ∧ Holds P 0 a.ins 0 X' m' ∧
      EN a.pts tiny (a.cycle2 u v d ^ n) (grown a.N tiny B n) (at3 X) (at3 X') := by
  induction n with
  | zero => exact ⟨m, X, Step.nil m, hX, by rw [pow_zero]; exact hB⟩
  | succ n ih =>
    obtain ⟨m1, X1, s1, h1, en⟩ := ih fun k hk => hbig k (by omega)
    obtain ⟨g, Sg, hg⟩ := S.exact
    have hva := S.args
    obtain ⟨c, rfl, rfl, rfl, _, Rd⟩ := Sg.ready
    have hb' := (hb.congr s1.dom).like (g := g) fun r hr => ⟨(hg r hr).fftsize, (hg r hr).sendsize, (hg r hr).recvsize⟩
    have hr' := hr.congr s1.dom
    obtain ⟨m2, s2, h2⟩ := Rd.computeF_fwd e hg (fun r => J r n) true h1 hb'
    obtain ⟨m3, s3, h3⟩ := Rd.backF e hg (fun r => J' r n) true h2 (hb'.congr s2.dom) (hr'.congr s2.dom) (fun _ => hio)
    have es : ∀ r < c.P, fsz g r = fsz f r := fun r hr => (hg r hr).fftsize.symm
    refine ⟨m3, _, (s1.append ((s2.append s3).resize es)).congr fun r _ => ?_, h3, ?_⟩
    · simp only [loop3Fl, if_pos hm]
    · rw [pow_succ]
      exact cycle_en R T hu hv ht hd hva htw hNb
        (one_le_pow₀ (Args3.one_le_cycle2 R.u0 T.v0 (by linarith) hd)) en (hbig n (by omega))

theorem Driver.loop2Fl_ok (R : RoundOK ar u tiny big) (T : TrigOK ar v cc tiny big) (hu : u ≤ 1 / 100)
    (hv : v ≤ 1 / 100) (ht : tiny ≤ 1 / 100) (hd : 0 ≤ d) {w : Int} {P : Nat} {a : Args2} {st : Settings}
    {f : Nat → Fft2 ℝ} (S : SetUp2F ar w P a st f) (htw : a.TwiddlesNear ar d)
    (hio : ∀ r < P, (a.ins r).count ≤ (a.outs r).count) (e : Bool) (J J' : Nat → Nat → Nat → Junk) {mode : Nat}
    (hm : mode < 2) {X : Grid2} {m : Nat → LMem ℝ} (hX : Holds2 P 0 a.ins 0 X m) (hb : Bufs2 P f 0 m)
    {B : ℝ} (hB : EN a.pts tiny 1 B (at2 X) (at2 X)) (hNb : a.N ≤ big) (n : Nat)
    (hbig : ∀ k < n, 2 * (a.cycle2 u v d ^ k * (1 + a.fftErr2 u d) ^ 2) * (a.N * grown a.N tiny B k) ≤ big) :
    ∃ m' X', Step e P (fsz2 f) 0 (fun r => loop2Fl ar (f r) false mode (J r) (J' r) n) m m' ∧
      Holds2 P 0 a.ins 0 X' m' ∧ EN a.pts tiny (a.cycle2 u v d ^ n) (grown a.N tiny B n) (at2 X) (at2 X') := by
  induction n with
  | zero => exact ⟨m, X, Step.nil m, hX, by rw [pow_zero]; exact hB⟩
  | succ n ih =>
    obtain ⟨m1, X1, s1, h1, en⟩ := ih fun k hk => hbig k (by omega)
    obtain ⟨g, Sg, hg⟩ := S.exact
    have hva := S.args
    obtain ⟨c, rfl, rfl, rfl, rfl, _, Rd⟩ := Sg.ready
    have hb' := (hb.congr s1.dom).like (g := g) fun r hr => ⟨(hg r hr).fftsize, (hg r hr).sendsize, (hg r hr).recvsize⟩
    obtain ⟨m2, s2, h2⟩ := Rd.computeF_fwd e hg (fun r => J r n) true h1 hb'
    obtain ⟨m3, s3, h3⟩ := Rd.computeF_back e hg (fun r => J' r n) true h2 (hb'.congr s2.dom) (fun _ => hio)
    have es : ∀ r < c.P, fsz2 g r = fsz2 f r := fun r hr => (hg r hr).fftsize.symm
    refine ⟨m3, _, (s1.append ((s2.append s3).resize es)).congr fun r _ => ?_, h3, ?_⟩
    · simp only [loop2Fl, if_pos hm]
    · rw [pow_succ]
      exact cycle2_en R T hu hv ht hd hva htw hNb
        (one_le_pow₀ (Args2.one_le_cycle2 R.u0 T.v0 (by linarith) hd)) en (hbig n (by omega))

/-! ## From the array to the grid and back -/

theorem norm_le_of_parts {z : ℂ} {W : ℝ} (h1 : |z.re| ≤ W) (h2 : |z.im| ≤ W) : ‖z‖ ≤ 3 / 2 * W := by
  have h0 : 0 ≤ W := (abs_nonneg _).trans h1
  have h3 := Complex.norm_le_sqrt_two_mul_max z
  have h4 : Real.sqrt 2 ≤ 3 / 2 := by
    rw [Real.sqrt_le_left (by norm_num)]
    norm_num
  calc ‖z‖ ≤ Real.sqrt 2 * max |z.re| |z.im| := h3
    _ ≤ 3 / 2 * W := mul_le_mul h4 (max_le h1 h2) (le_max_of_le_left (abs_nonneg _)) (by norm_num)

theorem Args3.Valid.en_of_le {P : Nat} {a : Args3} (hv : a.Valid P) (ht : 0 ≤ tiny) {X : Grid3} {m : Nat → LMem ℝ}
    (hX : Holds P 0 a.ins 0 X m) {s : Nat → Int → ℝ} (hs : Vals P (fun r => (a.ins r).count) s m) {W : ℝ}
    (hW : ∀ r < P, ∀ x, 0 ≤ x → x < 2 * (a.ins r).count → |s r x| ≤ W) :
    EN a.pts tiny 1 (Real.sqrt a.N * (3 / 2 * W + 2 * tiny)) (at3 X) (at3 X) := by
  have key : ∀ p ∈ a.pts, ‖at3 X p‖ ≤ 3 / 2 * W := by
    intro p hp
    obtain ⟨i, j, k⟩ := p
    simp only [Args3.pts, pts3, mem_product, mem_range] at hp
    rw [at3_apply]
    dsimp only
    obtain ⟨r, hr, hh⟩ := hv.tilesIn.owner (i : Int) (j : Int) (k : Int) ⟨by omega, by omega⟩ ⟨by omega, by omega⟩
      ⟨by omega, by omega⟩
    obtain ⟨e1, e2⟩ := hX r hr _ _ _ hh
    have h1 := addr3_range (permute := 0) (nqty := 1) (q := 0) hh (by decide)
    have h2 := Box3.count_of_has hh
    have r1 : 0 ≤ addr3 0 (a.ins r) 2 i j k 0 ∧ addr3 0 (a.ins r) 2 i j k 0 < 2 * (a.ins r).count := by
      rw [addr3_two]; omega
    have r2 : 0 ≤ addr3 0 (a.ins r) 2 i j k 1 ∧ addr3 0 (a.ins r) 2 i j k 1 < 2 * (a.ins r).count := by
      rw [addr3_two]; omega
    have q1 := hs r hr _ r1.1 r1.2
    have q2 := hs r hr _ r2.1 r2.2
    rw [e1] at q1
    rw [e2] at q2
    refine norm_le_of_parts ?_ ?_
    · rw [Option.some.inj q1]; exact hW r hr _ r1.1 r1.2
    · rw [Option.some.inj q2]; exact hW r hr _ r2.1 r2.2
  refine ⟨?_, ?_⟩
  · rw [← hv.card_pts]
    have hW0 : 0 ≤ 3 / 2 * W := by
      obtain ⟨k1, k2, k3⟩ := hv.pts_pos
      exact (norm_nonneg _).trans (key (0, 0, 0) (by simp [Args3.pts, pts3, k1, k2, k3]))
    rw [← l2_const _ (by linarith)]
    exact l2_mono' (fun p _ => by positivity) fun p hp => by linarith [key p hp]
  · have := (EN.refl a.pts tiny (at3 X)).err
    rw [sub_self, zero_mul] at this ⊢
    exact this

theorem Args3.Valid.vals_near {P : Nat} {a : Args3} (hv : a.Valid P) {X X' : Grid3} {m m' : Nat → LMem ℝ}
    (hX : Holds P 0 a.ins 0 X m) (hX' : Holds P 0 a.ins 0 X' m') {s : Nat → Int → ℝ}
    (hs : Vals P (fun r => (a.ins r).count) s m) {G B : ℝ} (en : EN a.pts tiny G B (at3 X) (at3 X')) :
    ∃ v, Vals P (fun r => (a.ins r).count) v m' ∧
      ∀ r < P, ∀ x, 0 ≤ x → x < 2 * (a.ins r).count → |v r x - s r x| ≤ (G - 1) * B := by
  have key : ∀ r < P, ∀ x, 0 ≤ x → x < 2 * (a.ins r).count →
      ∃ y, (m' r).ub 0 x = some y ∧ |y - s r x| ≤ (G - 1) * B := by
    intro r hr x h0 h1
    obtain ⟨i, j, k, q, hh, hq, rfl⟩ := addr_of_lt (p := 0) h0 h1
    obtain ⟨e1, e2⟩ := hX r hr _ _ _ hh
    obtain ⟨e1', e2'⟩ := hX' r hr _ _ _ hh
    have e3 := hs r hr _ h0 h1
    obtain ⟨⟨a1, a2⟩, ⟨b1, b2⟩, c1, c2⟩ := hv.tilesIn.inside r hr i j k hh
    obtain ⟨i, rfl⟩ := Int.eq_ofNat_of_zero_le a1
    obtain ⟨j, rfl⟩ := Int.eq_ofNat_of_zero_le b1
    obtain ⟨k, rfl⟩ := Int.eq_ofNat_of_zero_le c1
    have hp : (i, j, k) ∈ a.pts := by
      simp only [Args3.pts, pts3, mem_product, mem_range]
      omega
    have h2 := (le_l2 hp (fun p => ‖at3 X' p - at3 X p‖) (norm_nonneg _)).trans en.err
    simp only [at3_apply] at h2
    rcases hq with rfl | rfl
    · rw [e1] at e3
      refine ⟨_, e1', ?_⟩
      rw [← Option.some.inj e3, ← Complex.sub_re]
      exact (Complex.abs_re_le_norm _).trans h2
    · rw [e2] at e3
      refine ⟨_, e2', ?_⟩
      rw [← Option.some.inj e3, ← Complex.sub_im]
      exact (Complex.abs_im_le_norm _).trans h2
  refine ⟨fun r x => ((m' r).ub 0 x).getD 0, fun r hr x h0 h1 => ?_, fun r hr x h0 h1 => ?_⟩
  · obtain ⟨y, h2, _⟩ := key r hr x h0 h1
    dsimp only
    rw [h2]; rfl
  · obtain ⟨y, h2, h3⟩ := key r hr x h0 h1
    dsimp only
    rw [h2]; exact h3

theorem Args2.Valid.en_of_le {P : Nat} {a : Args2} (hv : a.Valid P) (ht : 0 ≤ tiny) {X : Grid2} {m : Nat → LMem ℝ}
    (hX : Holds2 P 0 a.ins 0 X m) {s : Nat → Int → ℝ} (hs : Vals P (fun r => (a.ins r).count) s m) {W : ℝ}
    (hW : ∀ r < P, ∀ x, 0 ≤ x → x < 2 * (a.ins r).count → |s r x| ≤ W) :
    EN a.pts tiny 1 (Real.sqrt a.N * (3 / 2 * W + 2 * tiny)) (at2 X) (at2 X) := by
  have key : ∀ p ∈ a.pts, ‖at2 X p‖ ≤ 3 / 2 * W := by
    intro p hp
    obtain ⟨i, j⟩ := p
    simp only [Args2.pts, pts2, mem_product, mem_range] at hp
    rw [at2_apply]
    dsimp only
    obtain ⟨r, hr, hh⟩ := hv.tilesIn.owner (i : Int) (j : Int) ⟨by omega, by omega⟩ ⟨by omega, by omega⟩
    obtain ⟨e1, e2⟩ := hX r hr _ _ hh
    have r1 := addr2_range (permute := 0) (Or.inl rfl) (nqty := 2) (q := 0) hh (by decide)
    have r2 := addr2_range (permute := 0) (Or.inl rfl) (nqty := 2) (q := 1) hh (by decide)
    have q1 := hs r hr _ r1.1 r1.2
    have q2 := hs r hr _ r2.1 r2.2
    rw [e1] at q1
    rw [e2] at q2
    refine norm_le_of_parts ?_ ?_
    · rw [Option.some.inj q1]; exact hW r hr _ r1.1 r1.2
    · rw [Option.some.inj q2]; exact hW r hr _ r2.1 r2.2
  refine ⟨?_, ?_⟩
  · rw [← hv.card_pts]
    have hW0 : 0 ≤ 3 / 2 * W := by
      obtain ⟨k1, k2⟩ := hv.pts_pos
      exact (norm_nonneg _).trans (key (0, 0) (by simp [Args2.pts, pts2, k1, k2]))
    rw [← l2_const _ (by linarith)]
    exact l2_mono' (fun p _ => by positivity) fun p hp => by linarith [key p hp]
  · have := (EN.refl a.pts tiny (at2 X)).err
    rw [sub_self, zero_mul] at this ⊢
    exact this

theorem Args2.Valid.vals_near {P : Nat} {a : Args2} (hv : a.Valid P) {X X' : Grid2} {m m' : Nat → LMem ℝ}
    (hX : Holds2 P 0 a.ins 0 X m) (hX' : Holds2 P 0 a.ins 0 X' m') {s : Nat → Int → ℝ}
    (hs : Vals P (fun r => (a.ins r).count) s m) {G B : ℝ} (en : EN a.pts tiny G B (at2 X) (at2 X')) :
    ∃ v, Vals P (fun r => (a.ins r).count) v m' ∧
      ∀ r < P, ∀ x, 0 ≤ x → x < 2 * (a.ins r).count → |v r x - s r x| ≤ (G - 1) * B := by
  have key : ∀ r < P, ∀ x, 0 ≤ x → x < 2 * (a.ins r).count →
      ∃ y, (m' r).ub 0 x = some y ∧ |y - s r x| ≤ (G - 1) * B := by
    intro r hr x h0 h1
    obtain ⟨i, j, k, q, hh, hq, he⟩ := addr_of_lt (p := 0) (b := (a.ins r).lift) h0 (by rw [Box2.lift_count]; exact h1)
    obtain ⟨hh', rfl⟩ := Box2.lift_has.mp hh
    rw [addr2_lift (Or.inl rfl)] at he
    subst he
    obtain ⟨e1, e2⟩ := hX r hr _ _ hh'
    obtain ⟨e1', e2'⟩ := hX' r hr _ _ hh'
    have e3 := hs r hr _ h0 h1
    obtain ⟨⟨a1, a2⟩, b1, b2⟩ := hv.tilesIn.inside r hr i j hh'
    obtain ⟨i, rfl⟩ := Int.eq_ofNat_of_zero_le a1
    obtain ⟨j, rfl⟩ := Int.eq_ofNat_of_zero_le b1
    have hp : (i, j) ∈ a.pts := by
      simp only [Args2.pts, pts2, mem_product, mem_range]
      omega
    have h2 := (le_l2 hp (fun p => ‖at2 X' p - at2 X p‖) (norm_nonneg _)).trans en.err
    simp only [at2_apply] at h2
    rcases hq with rfl | rfl
    · rw [e1] at e3
      refine ⟨_, e1', ?_⟩
      rw [← Option.some.inj e3, ← Complex.sub_re]
      exact (Complex.abs_re_le_norm _).trans h2
    · rw [e2] at e3
      refine ⟨_, e2', ?_⟩
      rw [← Option.some.inj e3, ← Complex.sub_im]
      exact (Complex.abs_im_le_norm _).trans h2
  refine ⟨fun r x => ((m' r).ub 0 x).getD 0, fun r hr x h0 h1 => ?_, fun r hr x h0 h1 => ?_⟩
  · obtain ⟨y, h2, _⟩ := key r hr x h0 h1
    dsimp only
    rw [h2]; rfl
  · obtain ⟨y, h2, h3⟩ := key r hr x h0 h1
    dsimp only
    rw [h2]; exact h3

/-- All ranks validate. -/
theorem Driver.epsFl_all (R : RoundOK ar u tiny big) {P : Nat} (hP : 0 < P) {cnt : Nat → Int} {v tgt : Nat → Int → ℝ}
    {m : Nat → LMem ℝ} (hv : Vals P cnt v m) {check : Nat → Mem ℝ → Option ℝ}
    (hc : ∀ r < P, ChecksFl ar (cnt r) (check r) (tgt r)) {D : ℝ} (hD0 : 0 ≤ D)
    (hD : ∀ r < P, ∀ x, 0 ≤ x → x < 2 * cnt r → |v r x - tgt r x| ≤ D) (hDb : D ≤ big) :
    ∃ eps, epsmax P (fun r => check r ((m r).ub 0)) = some eps ∧ 0 ≤ eps ∧ eps ≤ (1 + u) * D := by
  have u0 := R.u0
  have h : ∀ r, ∃ y, r < P → check r ((m r).ub 0) = some y ∧ 0 ≤ y ∧ y ≤ (1 + u) * D := by
    intro r
    by_cases hr : r < P
    · obtain ⟨dd, y, h1, h2, h3, _, h5⟩ := hc r hr _ (v r) (hv r hr)
      refine ⟨y, fun _ => ⟨h2, h3, ?_⟩⟩
      rcases h5 with h5 | ⟨x, hx0, hx1, h5⟩
      · rw [h5]; positivity
      · have k := hD r hr x hx0 hx1
        rw [h5]
        rcases h1 x with h | h
        · rw [h]; nlinarith
        · have q := R.dsub (v r x) (tgt r x) (k.trans hDb)
          have q1 := abs_sub_abs_le_abs_sub (ar.dsub (v r x) (tgt r x)) (v r x - tgt r x)
          rw [h]
          nlinarith
    · exact ⟨0, fun h => absurd h hr⟩
  choose y hy using h
  obtain ⟨eps, h1, h2, r0, hr0, h3⟩ := epsmax_ok hP (eps := fun r => check r ((m r).ub 0)) (v := y)
    fun r hr => (hy r hr).1
  rw [h3] at h1
  exact ⟨_, h1, (hy r0 hr0).2.1, (hy r0 hr0).2.2⟩

/-! ## Only moving data -/

theorem Fft3.Rounded.remap_only {f g : Fft3 ℝ} {N : Int} (h : f.Rounded ar g N) (J : Nat → Junk) (scaled : Bool)
    (flag : Int) (ai ao : Nat) : f.computeF ar J scaled true flag ai ao = g.compute J scaled true flag ai ao := by
  unfold Fft3.computeF Fft3.compute
  simp only [if_true, not_true_eq_false, and_false, if_false]
  rw [h.same, h.prefast, h.fastmid, h.midslow, h.postslow, h.preslow, h.slowmid, h.midfast, h.postfast, h.insize,
    h.outsize]

theorem Fft2.Rounded.remap_only {f g : Fft2 ℝ} {N : Int} (h : f.Rounded ar g N) (J : Nat → Junk) (scaled : Bool)
    (flag : Int) (ai ao : Nat) : f.computeF ar J scaled true flag ai ao = g.compute J scaled true flag ai ao := by
  unfold Fft2.computeF Fft2.compute
  simp only [if_true, not_true_eq_false, and_false, if_false]
  rw [h.same, h.prefast, h.fastslow, h.postslow, h.preslow, h.slowfast, h.postfast, h.insize, h.outsize]

theorem Driver.loop3Fl_remap {f g : Fft3 ℝ} {N : Int} (h : f.Rounded ar g N) (mode : Nat) (J J' : Nat → Nat → Junk)
    (n : Nat) : loop3Fl ar f true mode J J' n = loop3 g true mode J J' n := by
  induction n with
  | zero => rfl
  | succ n ih => rw [loop3Fl, loop3, ih, h.remap_only, h.remap_only]

theorem Driver.loop2Fl_remap {f g : Fft2 ℝ} {N : Int} (h : f.Rounded ar g N) (mode : Nat) (J J' : Nat → Nat → Junk)
    (n : Nat) : loop2Fl ar f true mode J J' n = loop2 g true mode J J' n := by
  induction n with
  | zero => rfl
  | succ n ih => rw [loop2Fl, loop2, ih, h.remap_only, h.remap_only]

/-! ## Numbers -/

/-- The numbers of the arrays after `k` passes. -/
theorem Driver.grown_small {N tiny u V τ : ℝ} {n : Nat} (hN : 1 ≤ N) (t0 : 0 ≤ tiny) (u0 : 0 ≤ u) (hu : u ≤ 1 / 100)
    (hV : 0 ≤ V) (h1 : n * (N * tiny) ≤ 1 / 32) (h2 : (n + 2) * tiny * 4 ≤ τ) {k : Nat} (hk : k ≤ n) :
    grown N tiny (Real.sqrt N * (3 / 2 * (V + u * (V + tiny)) + 2 * tiny)) k ≤ 8 / 5 * (Real.sqrt N * (V + τ)) := by
  have hs := Real.sqrt_nonneg N
  have hN0 : 0 ≤ N := by linarith
  have hB : 0 ≤ Real.sqrt N * (3 / 2 * (V + u * (V + tiny)) + 2 * tiny) := by positivity
  have hkn : (k : ℝ) ≤ n := by exact_mod_cast hk
  have q1 : (1 + N * tiny) ^ k ≤ 1.04 := by
    have h3 : k * (N * tiny) ≤ 1 / 32 := le_trans (by gcongr) h1
    refine (pow_small (by positivity) k h3).trans ?_
    linarith
  have q2 := grown_le hN0 t0 hB k
  have q3 : 0 ≤ Real.sqrt N * (3 / 2 * (V + u * (V + tiny)) + 2 * tiny) + k * (Real.sqrt N * (2 * tiny)) := by positivity
  have q4 : 3 / 2 * (V + u * (V + tiny)) + 2 * tiny + k * (2 * tiny) ≤ 1.515 * (V + τ) := by
    have a1 : u * (V + tiny) ≤ 1 / 100 * (V + tiny) := by gcongr
    have a2 : (k : ℝ) * (2 * tiny) ≤ n * (2 * tiny) := by gcongr
    have a3 : (n : ℝ) * tiny * 4 + 8 * tiny ≤ τ := by linarith
    nlinarith [mul_nonneg (Nat.cast_nonneg (α := ℝ) n) t0]
  calc _ ≤ (1 + N * tiny) ^ k * (Real.sqrt N * (3 / 2 * (V + u * (V + tiny)) + 2 * tiny) + k * (Real.sqrt N * (2 * tiny))) := q2
    _ ≤ 1.04 * (Real.sqrt N * (3 / 2 * (V + u * (V + tiny)) + 2 * tiny) + k * (Real.sqrt N * (2 * tiny))) := by gcongr
    _ = 1.04 * (Real.sqrt N * (3 / 2 * (V + u * (V + tiny)) + 2 * tiny + k * (2 * tiny))) := by ring
    _ ≤ 1.04 * (Real.sqrt N * (1.515 * (V + τ))) := by gcongr
    _ ≤ _ := by
      have : 0 ≤ Real.sqrt N * (V + τ) := by
        have : 0 ≤ τ := le_trans (by positivity) h2
        positivity
      linarith

/-- No overflow. -/
theorem Driver.pass_small {N C E g B X : ℝ} {n k : Nat} (hN : 0 ≤ N) (hC0 : 1 ≤ C) (hC : C ≤ 1 + g) (hg : n * g ≤ 1 / 32)
    (hk : k ≤ n) (hE0 : 0 ≤ E) (hE : E ≤ 1 / 100) (hB0 : 0 ≤ B) (hB : B ≤ 8 / 5 * X) (hX : 0 ≤ X) :
    2 * (C ^ k * (1 + E) ^ 2) * (N * B) ≤ 4 * (N * X) := by
  have g0 : 0 ≤ g := by linarith
  have hkn : (k : ℝ) ≤ n := by exact_mod_cast hk
  have q1 : C ^ k ≤ 1.04 := by
    refine (pow_le_pow_left₀ (by linarith) hC k).trans ((pow_small g0 k (le_trans (by gcongr) hg)).trans ?_)
    have : (k : ℝ) * g ≤ 1 / 32 := le_trans (by gcongr) hg
    linarith
  have q2 : (1 + E) ^ 2 ≤ 1.0201 := by nlinarith
  calc _ ≤ 2 * (1.04 * 1.0201) * (N * (8 / 5 * X)) := by gcongr
    _ ≤ _ := by
      have : 0 ≤ N * X := by positivity
      nlinarith

/-- The error. -/
theorem Driver.eps_small {C g B X u V τ tiny : ℝ} {n : Nat} (hC0 : 1 ≤ C) (hC : C ≤ 1 + g) (hg : n * g ≤ 1 / 32)
    (hB0 : 0 ≤ B) (hB : B ≤ 8 / 5 * X) (hX : 0 ≤ X) (u0 : 0 ≤ u) (hu : u ≤ 1 / 100) (hV : 0 ≤ V) (t0 : 0 ≤ tiny)
    (hτ : tiny ≤ τ) :
    (C ^ n - 1) * B + u * (V + tiny) ≤ 1.7 * (n * g) * X + u * (V + τ) ∧
    (1 + u) * ((C ^ n - 1) * B + u * (V + tiny)) ≤ 2 * (n * g) * X + 2 * u * (V + τ) := by
  have g0 : 0 ≤ g := by linarith
  have q1 : C ^ n - 1 ≤ 17 / 16 * (n * g) := by
    have := (pow_le_pow_left₀ (by linarith) hC n).trans (pow_small g0 n hg)
    linarith
  have q0 : 0 ≤ (n : ℝ) * g := by positivity
  have q2 : (C ^ n - 1) * B ≤ 17 / 16 * (n * g) * (8 / 5 * X) := by gcongr
  have q3 : (C ^ n - 1) * B + u * (V + tiny) ≤ 1.7 * (n * g) * X + u * (V + τ) := by
    have : u * (V + tiny) ≤ u * (V + τ) := by gcongr
    nlinarith
  refine ⟨q3, ?_⟩
  have p1 : 0 ≤ (n : ℝ) * g * X := by positivity
  have p2 : 0 ≤ u * (V + τ) := by
    have : 0 ≤ τ := t0.trans hτ
    positivity
  calc (1 + u) * ((C ^ n - 1) * B + u * (V + tiny)) ≤ (1 + u) * (1.7 * (n * g) * X + u * (V + τ)) := by gcongr
    _ ≤ (1 + 1 / 100) * (1.7 * (n * g) * X + u * (V + τ)) := by gcongr
    _ ≤ _ := by nlinarith

end FftMpi
