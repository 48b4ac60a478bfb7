import Verif.Driver32
import Verif.PropsDriverRun
import Verif.PropsFftInt2

/-!
# Lemmas about the test programs with 32-bit integers
-/

noncomputable section

namespace FftMpi

open Driver

variable {rnd : ℝ → ℝ}

namespace Driver

/-! ## Processor grids -/

theorem divLoop32_eq {σ : Type} {n : Nat} (hn : n < 2147483647) {body : Nat → σ → Option σ} {g : Nat → σ → σ}
    (h : ∀ i s, 1 ≤ i → i ≤ n → n % i = 0 → body i s = some (g i s)) (s : σ) :
    divLoop32 n body s = some (divLoop n g s) := by
  unfold divLoop32 divLoop
  refine foldlM_some _ _ ?_
  intro s i hi
  rw [List.mem_range'_1] at hi
  have e : (if n % i = 0 then body i s else some s) = some (if n % i = 0 then g i s else s) := by
    split_ifs with h0
    · exact h i s hi.1 (by omega) h0
    · rfl
  rw [e, Option.bind_some, add32_eq (fits_of (by omega) (by omega))]
  rfl

/-- The last increment overflows if `n` is the largest `int`. -/
theorem divLoop32_none {σ : Type} {n : Nat} (hn : n = 2147483647) (body : Nat → σ → Option σ) (s : σ) :
    divLoop32 n body s = none := by
  unfold divLoop32
  have e : List.range' 1 n = List.range' 1 (n - 1) ++ [n] := by
    rw [show n = (n - 1) + 1 by omega, List.range'_concat]
    simp
    omega
  have k : ∀ (f : σ → Nat → Option σ), (∀ s, f s n = none) → (List.range' 1 n).foldlM f s = none := by
    intro f hf
    rw [e, List.foldlM_append]
    simp only [List.foldlM_cons, List.foldlM_nil]
    cases (List.range' 1 (n - 1)).foldlM f s with
    | none => rfl
    | some t => simp [hf]
  refine k _ fun s => ?_
  have : add32 (n : Int) 1 = none := by
    unfold add32 ck
    rw [if_neg (by unfold Fits; omega)]
  rw [this]
  cases (if n % n = 0 then body n s else some s) <;> rfl

theorem triple_le {a b c P : Nat} (h : a * b * c = P) (hP : 0 < P) : a ≤ P ∧ b ≤ P ∧ c ≤ P ∧ a * b ≤ P := by
  have hc : 0 < c := by rcases Nat.eq_zero_or_pos c with h0 | h0; · subst h0; simp at h; omega
                        · exact h0
  have hb : 0 < b := by rcases Nat.eq_zero_or_pos b with h0 | h0; · subst h0; simp at h; omega
                        · exact h0
  have ha : 0 < a := by rcases Nat.eq_zero_or_pos a with h0 | h0; · subst h0; simp at h; omega
                        · exact h0
  have h1 : a * b ≤ P := by rw [← h]; exact Nat.le_mul_of_pos_right _ hc
  have h2 : a ≤ a * b := Nat.le_mul_of_pos_right _ hb
  have h3 : b ≤ a * b := Nat.le_mul_of_pos_left _ ha
  have h4 : c ≤ P := by rw [← h]; exact Nat.le_mul_of_pos_left _ (Nat.mul_pos ha hb)
  omega

theorem proc3d32_eq {nx ny nz P : Nat} (hP : 0 < P) (hP' : P < 2147483647) {p q : Nat × Nat × Nat}
    (h : proc3d rnd nx ny nz P p = some q) : proc3d32 rnd nx ny nz P p = some (some q) := by
  unfold proc3d32
  unfold proc3d at h
  dsimp only at h ⊢
  rw [divLoop32_eq hP' (g := fun ipx b => divLoop (P / ipx) (fun ipy b =>
    keep (surf3 rnd nx ny nz) (ipx, ipy, P / ipx / ipy) b) b) ?_]
  · generalize divLoop P _ _ = b at h ⊢
    rw [Option.bind_some]
    split_ifs at h with h0
    have h0' := not_not.mp h0
    obtain ⟨-, -, -, h1⟩ := triple_le h0' hP
    cases h
    rw [mul32_eq (by rw [← Nat.cast_mul]; exact fits_of (by omega) (by omega)), Option.bind_some,
      mul32_eq (by rw [← Nat.cast_mul, ← Nat.cast_mul, h0']; exact fits_of (by omega) (by omega))]
    rw [Option.map_some, ← Nat.cast_mul, ← Nat.cast_mul, h0', if_neg (by simp)]
  · intro i s h1 h2 _
    have : P / i ≤ P := Nat.div_le_self _ _
    exact divLoop32_eq (by omega) (fun _ _ _ _ _ => rfl) s

theorem proc2d32_eq {nx ny P : Nat} (hP' : P < 2147483647) {p q : Nat × Nat}
    (h : proc2d rnd nx ny P p = some q) : proc2d32 rnd nx ny P p = some (some q) := by
  unfold proc2d32
  unfold proc2d at h
  dsimp only at h ⊢
  rw [divLoop32_eq hP' (g := fun ipx b => keep (surf2 rnd nx ny) (ipx, P / ipx) b) (fun _ _ _ _ _ => rfl)]
  generalize divLoop P _ _ = b at h ⊢
  rw [Option.bind_some]
  split_ifs at h with h0
  have h0' := not_not.mp h0
  cases h
  rw [mul32_eq (by rw [← Nat.cast_mul, h0']; exact fits_of (by omega) (by omega))]
  rw [Option.map_some, ← Nat.cast_mul, h0', if_neg (by simp)]

/-! ## Boxes -/

theorem toInt32_eq {x : ℝ} (h0 : 0 ≤ x) {n : Int} (h : ⌊x⌋ = n) (hn : Fits n) : toInt32 x = some n := by
  unfold toInt32
  rw [if_pos h0, h, ck_eq hn]

theorem lo32_eq (R : Rounding rnd) {ip n np : Nat} (h : Fits (lo rnd ip n np)) :
    lo32 rnd ip n np = some (lo rnd ip n np) := by
  unfold lo32
  refine toInt32_eq ?_ ?_ h
  · exact R.nonneg (div_nonneg (R.nonneg (mul_nonneg (R.nonneg (by push_cast; positivity)) (by positivity))) (by positivity))
  · unfold lo
    rw [Int.cast_natCast]

theorem hi32_eq (R : Rounding rnd) {ip n np : Nat} (hip : ip < 2147483647) (h : Fits (hi rnd ip n np))
    (h' : Fits (hi rnd ip n np + 1)) : hi32 rnd ip n np = some (hi rnd ip n np) := by
  unfold hi32
  rw [add32_eq (fits_of (by omega) (by omega)), Option.bind_some,
    toInt32_eq (n := hi rnd ip n np + 1) ?_ ?_ h', Option.bind_some, sub32_eq]
  · congr 1; ring
  · rw [show hi rnd ip n np + 1 - 1 = hi rnd ip n np by ring]; exact h
  · exact R.nonneg (div_nonneg (R.nonneg (mul_nonneg (R.nonneg (by push_cast; positivity)) (by positivity))) (by positivity))
  · unfold hi
    push_cast
    ring

theorem box3_32_eq (R : Rounding rnd) {np : Nat × Nat × Nat} {P : Nat} (h : np.1 * np.2.1 * np.2.2 = P) (hP : 0 < P)
    (hP' : P ≤ 2147483647) {nx ny nz me : Nat} (hme : me < P) (hx : nx ≤ 2147483647) (hy : ny ≤ 2147483647)
    (hz : nz ≤ 2147483647) (hp : (box3 rnd np nx ny nz me).Proper) (hw : (box3 rnd np nx ny nz me).Within nx ny nz) :
    box3_32 rnd np nx ny nz me = some (box3 rnd np nx ny nz me) := by
  obtain ⟨c1, c2, c3⟩ := (gridCoords_bij h hP).1 me hme
  obtain ⟨l1, l2, l3, -⟩ := triple_le h hP
  unfold box3_32
  rw [gridCoords32_eq h hP hP' hme, Option.bind_some]
  unfold Box3.Proper Box3.Within Box3.isize Box3.jsize Box3.ksize box3 at *
  simp only [gridCoords] at c1 c2 c3 hp hw ⊢
  rw [lo32_eq R ⟨by omega, by omega⟩, Option.bind_some, hi32_eq R (by omega) ⟨by omega, by omega⟩ ⟨by omega, by omega⟩,
    Option.bind_some, lo32_eq R ⟨by omega, by omega⟩, Option.bind_some,
    hi32_eq R (by omega) ⟨by omega, by omega⟩ ⟨by omega, by omega⟩, Option.bind_some,
    lo32_eq R ⟨by omega, by omega⟩, Option.bind_some, hi32_eq R (by omega) ⟨by omega, by omega⟩ ⟨by omega, by omega⟩,
    Option.map_some]

theorem box2_32_eq (R : Rounding rnd) {np : Nat × Nat} {P : Nat} (h : np.1 * np.2 = P) (hP : 0 < P)
    (hP' : P ≤ 2147483647) {nx ny me : Nat} (hme : me < P) (hx : nx ≤ 2147483647) (hy : ny ≤ 2147483647)
    (hp : (box2 rnd np nx ny me).Proper) (hw : (box2 rnd np nx ny me).Within nx ny) :
    box2_32 rnd np nx ny me = some (box2 rnd np nx ny me) := by
  obtain ⟨c1, c2⟩ := (gridCoords2_bij h hP).1 me hme
  have l1 := triple_le (a := np.1) (b := np.2) (c := 1) (by simpa using h) hP
  unfold box2_32
  rw [gridCoords2_32_eq h hP hP' hme, Option.bind_some]
  unfold Box2.Proper Box2.Within Box2.isize Box2.jsize box2 at *
  simp only [gridCoords2] at c1 c2 hp hw ⊢
  rw [lo32_eq R ⟨by omega, by omega⟩, Option.bind_some, hi32_eq R (by omega) ⟨by omega, by omega⟩ ⟨by omega, by omega⟩,
    Option.bind_some, lo32_eq R ⟨by omega, by omega⟩, Option.bind_some,
    hi32_eq R (by omega) ⟨by omega, by omega⟩ ⟨by omega, by omega⟩, Option.map_some]

/-- A box inside a grid of `int` dimensions. -/
def In32 (b : Box3) : Prop := b.Proper ∧ ∃ nx ny nz : Int, b.Within nx ny nz ∧ nx ≤ 2147483647 ∧ ny ≤ 2147483647 ∧ nz ≤ 2147483647
def In32_2 (b : Box2) : Prop := b.Proper ∧ ∃ nx ny : Int, b.Within nx ny ∧ nx ≤ 2147483647 ∧ ny ≤ 2147483647

theorem size32_eq {lo hi n : Int} (h0 : 0 ≤ lo) (h1 : 0 ≤ hi - lo + 1) (h2 : hi < n) (hn : n ≤ 2147483647) :
    size32 lo hi = some (hi - lo + 1) := by
  unfold size32
  rw [sub32_eq ⟨by omega, by omega⟩, Option.bind_some, add32_eq ⟨by omega, by omega⟩]

theorem In32.sizes {b : Box3} (h : In32 b) : size32 b.ilo b.ihi = some b.isize ∧ size32 b.jlo b.jhi = some b.jsize ∧
    size32 b.klo b.khi = some b.ksize := by
  obtain ⟨⟨h1, h2, h3⟩, nx, ny, nz, ⟨⟨w1, w2⟩, ⟨w3, w4⟩, w5, w6⟩, m1, m2, m3⟩ := h
  unfold Box3.isize Box3.jsize Box3.ksize at *
  exact ⟨size32_eq w1 h1 w2 m1, size32_eq w3 h2 w4 m2, size32_eq w5 h3 w6 m3⟩

theorem In32_2.sizes {b : Box2} (h : In32_2 b) :
    size32 b.ilo b.ihi = some b.isize ∧ size32 b.jlo b.jhi = some b.jsize := by
  obtain ⟨⟨h1, h2⟩, nx, ny, ⟨⟨w1, w2⟩, w3, w4⟩, m1, m2⟩ := h
  unfold Box2.isize Box2.jsize at *
  exact ⟨size32_eq w1 h1 w2 m1, size32_eq w3 h2 w4 m2⟩

theorem mul32_iff {a b : Int} (ha : 0 ≤ a) (hb : 0 ≤ b) : (mul32 a b).isSome ↔ a * b ≤ 2147483647 := by
  have h0 := mul_nonneg ha hb
  unfold mul32 ck
  split_ifs with h
  · exact ⟨fun _ => h.2, fun _ => rfl⟩
  · refine ⟨fun h' => by simp at h', fun h' => absurd (fits_of h0 h') h⟩

theorem nfft3_32_eq {b : Box3} (h : In32 b) (h1 : b.isize * b.jsize ≤ 2147483647) (h2 : nfft3 b ≤ 2147483647) :
    nfft3_32 b = some (nfft3 b) := by
  obtain ⟨s1, s2, s3⟩ := h.sizes
  obtain ⟨p1, p2, p3⟩ := h.1
  unfold nfft3_32
  have p12 := mul_nonneg p1 p2
  rw [s1, Option.bind_some, s2, Option.bind_some, mul32_eq (fits_of p12 h1), Option.bind_some, s3, Option.bind_some,
    mul32_eq (fits_of (mul_nonneg p12 p3) h2)]
  rfl

theorem nfft3_32_iff {b : Box3} (h : In32 b) :
    (nfft3_32 b).isSome ↔ b.isize * b.jsize ≤ 2147483647 ∧ nfft3 b ≤ 2147483647 := by
  obtain ⟨s1, s2, s3⟩ := h.sizes
  obtain ⟨p1, p2, p3⟩ := h.1
  constructor
  · intro hs
    unfold nfft3_32 at hs
    rw [s1, Option.bind_some, s2, Option.bind_some] at hs
    have h1 : b.isize * b.jsize ≤ 2147483647 := by
      rw [← mul32_iff p1 p2]
      cases hm : mul32 b.isize b.jsize with
      | none => rw [hm] at hs; cases hs
      | some _ => rfl
    rw [mul32_eq (fits_of (mul_nonneg p1 p2) h1), Option.bind_some, s3, Option.bind_some,
      mul32_iff (mul_nonneg p1 p2) p3] at hs
    exact ⟨h1, hs⟩
  · rintro ⟨h1, h2⟩
    rw [nfft3_32_eq h h1 h2]
    rfl

theorem nfft2_32_iff {b : Box2} (h : In32_2 b) : (nfft2_32 b).isSome ↔ nfft2 b ≤ 2147483647 := by
  obtain ⟨s1, s2⟩ := h.sizes
  unfold nfft2_32
  rw [s1, Option.bind_some, s2, Option.bind_some, mul32_iff h.1.1 h.1.2]
  rfl

theorem nfft2_32_eq {b : Box2} (h : In32_2 b) (h2 : nfft2 b ≤ 2147483647) : nfft2_32 b = some (nfft2 b) := by
  obtain ⟨s1, s2⟩ := h.sizes
  unfold nfft2_32
  rw [s1, Option.bind_some, s2, Option.bind_some, mul32_eq (fits_of (mul_nonneg h.1.1 h.1.2) h2)]
  rfl

/-- In a grid of blocks the area of a slab is at most the number of points of some other box with the same area. -/
theorem area_le {np : Nat × Nat × Nat} {P : Nat} (h : np.1 * np.2.1 * np.2.2 = P) (hP : 0 < P) {n1 n2 n3 : Nat}
    (hn : 0 < n3) {me : Nat} (hme : me < P) : ∃ r < P,
    (gridBox np n1 n2 n3 me).isize * (gridBox np n1 n2 n3 me).jsize ≤ (gridBox np n1 n2 n3 r).count := by
  obtain ⟨k1, k2, -⟩ := gridCoords_bij h hP
  obtain ⟨c1, c2, c3⟩ := k1 me hme
  obtain ⟨z, hz, hz0⟩ : ∃ z < np.2.2, 0 < blockHi z n3 np.2.2 - blockLo z n3 np.2.2 + 1 := by
    refine ⟨np.2.2 - 1, by omega, ?_⟩
    unfold blockHi blockLo
    rw [show np.2.2 - 1 + 1 = np.2.2 by omega, Nat.mul_div_cancel_left _ (by omega)]
    have : (np.2.2 - 1) * n3 / np.2.2 < n3 := by
      rw [Nat.div_lt_iff_lt_mul (by omega), mul_comm n3]
      exact Nat.mul_lt_mul_of_pos_right (by omega) hn
    omega
  obtain ⟨hr, e⟩ := k2 _ _ z c1 c2 hz
  refine ⟨_, hr, ?_⟩
  obtain ⟨s1, s2, s3⟩ := gridBox_sizes np n1 n2 n3 me
  unfold Box3.count
  have e1 : ∀ r, gridCoords np r = ((gridCoords np me).1, (gridCoords np me).2.1, z) →
      (gridBox np n1 n2 n3 r).isize = (gridBox np n1 n2 n3 me).isize ∧
      (gridBox np n1 n2 n3 r).jsize = (gridBox np n1 n2 n3 me).jsize ∧ 1 ≤ (gridBox np n1 n2 n3 r).ksize := by
    intro r hr
    unfold gridBox Box3.isize Box3.jsize Box3.ksize
    simp only [hr]
    exact ⟨trivial, trivial, by omega⟩
  obtain ⟨e1, e2, e3⟩ := e1 _ e
  rw [e1, e2, max_eq_left s1, max_eq_left s2, max_eq_left (by omega)]
  exact le_mul_of_one_le_right (mul_nonneg s1 s2) e3

/-! ## Loops -/

theorem tdiv_nonneg_le {a b : Int} (ha : 0 ≤ a) (hb : 0 < b) : 0 ≤ a.tdiv b ∧ a.tdiv b ≤ a := by
  rw [Int.tdiv_eq_ediv_of_nonneg ha]
  exact ⟨Int.ediv_nonneg ha hb.le, Int.ediv_le_self _ ha⟩

theorem div32_pos {a b : Int} (ha : 0 ≤ a) (ha' : a ≤ 2147483647) (hb : 0 < b) : div32 a b = some (a.tdiv b) := by
  obtain ⟨h1, h2⟩ := tdiv_nonneg_le ha hb
  unfold div32
  rw [if_neg (by omega), ck_eq (fits_of h1 (by omega))]

theorem mod32_pos {a b : Int} (ha : 0 ≤ a) (ha' : a ≤ 2147483647) (hb : 0 < b) : mod32 a b = some (a.tmod b) := by
  unfold mod32
  have h1 := Int.emod_nonneg a (b := b) (by omega)
  have h2 : a % b ≤ a := by
    have e := Int.mul_ediv_add_emod a b
    have := mul_nonneg hb.le (Int.ediv_nonneg ha hb.le)
    linarith
  rw [if_neg (by omega), Int.tmod_eq_emod_of_nonneg ha, ck_eq (fits_of h1 (by omega))]

theorem point3_32_eq {b : Box3} (h : In32 b) (hn : nfft3 b ≤ 2147483647) {m : Int} (h0 : 0 ≤ m) (h1 : m < nfft3 b) :
    point3_32 b b.isize b.jsize m = point3 b m := by
  obtain ⟨i, j, k, hh, -, hp⟩ := point3_ok h.1 h0 h1
  obtain ⟨p1, p2, p3⟩ := h.1
  have hh' := hh
  unfold Box3.Has at hh'
  have q1 : 0 < b.isize := by unfold Box3.isize; omega
  have q2 : 0 < b.jsize := by unfold Box3.jsize; omega
  have q3 : 1 ≤ b.ksize := by unfold Box3.ksize; omega
  have q12 := mul_pos q1 q2
  have q : b.isize * b.jsize ≤ nfft3 b := le_mul_of_one_le_right q12.le q3
  rw [hp]
  unfold point3 at hp
  rw [if_neg (by omega)] at hp
  simp only [Option.some.injEq, Prod.mk.injEq] at hp
  obtain ⟨e1, e2, e3⟩ := hp
  obtain ⟨-, nx, ny, nz, ⟨⟨w1, w2⟩, ⟨w3, w4⟩, w5, w6⟩, m1, m2, m3⟩ := h
  obtain ⟨t1, t2⟩ := tdiv_nonneg_le h0 q1
  unfold point3_32
  rw [mod32_pos h0 (by omega) q1, Option.bind_some, div32_pos h0 (by omega) q1, Option.bind_some,
    mod32_pos t1 (by omega) q2, Option.bind_some, mul32_eq (fits_of q12.le (by omega)), Option.bind_some,
    div32_pos h0 (by omega) q12, Option.bind_some,
    add32_eq (by rw [e1]; exact ⟨by omega, by omega⟩), Option.bind_some,
    add32_eq (by rw [e2]; exact ⟨by omega, by omega⟩), Option.bind_some,
    add32_eq (by rw [e3]; exact ⟨by omega, by omega⟩), Option.map_some, e1, e2, e3]

theorem point2_32_eq {b : Box2} (h : In32_2 b) (hn : nfft2 b ≤ 2147483647) {m : Int} (h0 : 0 ≤ m) (h1 : m < nfft2 b) :
    point2_32 b b.isize m = point2 b m := by
  obtain ⟨i, j, hh, -, hp⟩ := point2_ok h.1 h0 h1
  have hh' := hh
  unfold Box2.Has at hh'
  have q1 : 0 < b.isize := by unfold Box2.isize; omega
  rw [hp]
  unfold point2 at hp
  rw [if_neg (by omega)] at hp
  simp only [Option.some.injEq, Prod.mk.injEq] at hp
  obtain ⟨e1, e2⟩ := hp
  obtain ⟨-, nx, ny, ⟨⟨w1, w2⟩, w3, w4⟩, m1, m2⟩ := h
  unfold point2_32
  rw [mod32_pos h0 (by omega) q1, Option.bind_some, div32_pos h0 (by omega) q1, Option.bind_some,
    add32_eq (by rw [e1]; exact ⟨by omega, by omega⟩), Option.bind_some,
    add32_eq (by rw [e2]; exact ⟨by omega, by omega⟩), Option.map_some, e1, e2]

theorem two_mul32 {m : Int} (h0 : 0 ≤ m) (h1 : 2 * m ≤ 2147483647) : mul32 2 m = some (2 * m) :=
  mul32_eq (fits_of (by omega) h1)

theorem two_mul32_none {m : Int} (h1 : 2147483647 < 2 * m) : mul32 2 m = none := by
  unfold mul32 ck
  rw [if_neg (by unfold Fits; omega)]

theorem odd32 {m : Int} (h0 : 0 ≤ m) (h1 : 2 * m + 1 ≤ 2147483647) : add32 (2 * m) 1 = some (2 * m + 1) :=
  add32_eq (fits_of (by omega) h1)

variable {γ : Type}

theorem fillAt32_eq {n : Int} (hn : 2 * n - 1 ≤ 2147483647) (h0 : 0 ≤ n) {pt pt' : Int → Option γ} {val : γ → ℝ}
    {val' : γ → Option ℝ} (hp : ∀ m, 0 ≤ m → m < n → pt' m = pt m)
    (hv : ∀ m g, 0 ≤ m → m < n → pt m = some g → val' g = some (val g)) (w : Mem ℝ) :
    fillAt32 n pt' val' w = fillAt n pt val w := by
  unfold fillAt32 fillAt
  refine (forN_congr (fun _ _ => True) h0 trivial ?_).1
  intro m w h1 h2 _
  refine ⟨?_, fun _ _ => trivial⟩
  rw [hp m h1 h2]
  cases hg : pt m with
  | none => rfl
  | some g =>
    simp only [Option.bind_some]
    rw [hv m g h1 h2 hg, Option.bind_some, two_mul32 h1 (by omega), Option.bind_some]
    simp only [Option.bind_some, odd32 h1 (show 2 * m + 1 ≤ 2147483647 by omega)]

theorem checkAt32_eq {n : Int} (hn : 2 * n - 1 ≤ 2147483647) (h0 : 0 ≤ n) {pt pt' : Int → Option γ} {val : γ → ℝ}
    {val' : γ → Option ℝ} (hp : ∀ m, 0 ≤ m → m < n → pt' m = pt m)
    (hv : ∀ m g, 0 ≤ m → m < n → pt m = some g → val' g = some (val g)) (w : Mem ℝ) :
    checkAt32 n pt' val' w = checkAt n pt val w := by
  unfold checkAt32 checkAt
  refine (forN_congr (fun _ _ => True) h0 trivial ?_).1
  intro m eps h1 h2 _
  refine ⟨?_, fun _ _ => trivial⟩
  rw [hp m h1 h2]
  cases hg : pt m with
  | none => rfl
  | some g =>
    simp only [Option.bind_some]
    rw [hv m g h1 h2 hg, Option.bind_some, two_mul32 h1 (by omega), Option.bind_some]
    simp only [Option.bind_some, odd32 h1 (show 2 * m + 1 ≤ 2147483647 by omega)]

theorem printed32_eq {n : Int} (hn : 2 * n - 1 ≤ 2147483647) (h0 : 0 ≤ n) {pt pt' : Int → Option γ}
    (hp : ∀ m, 0 ≤ m → m < n → pt' m = pt m) (w : Mem ℝ) : printed32 n pt' w = printed n pt w := by
  unfold printed32 printed
  refine (forN_congr (fun _ _ => True) h0 trivial ?_).1
  intro m l h1 h2 _
  refine ⟨?_, fun _ _ => trivial⟩
  rw [hp m h1 h2]
  cases hg : pt m with
  | none => rfl
  | some g =>
    simp only [Option.bind_some]
    rw [two_mul32 h1 (by omega), Option.bind_some]
    simp only [Option.bind_some, odd32 h1 (show 2 * m + 1 ≤ 2147483647 by omega)]

/-- A pass that writes or reads element `2*m+1` beyond the largest `int` is undefined. -/
theorem odd32_none {β : Type} {m : Int} (h1 : 2147483647 < 2 * m + 1) (k : Int → Option β) :
    ((mul32 2 m).bind fun a => (add32 a 1).bind k) = none := by
  unfold mul32 ck
  split_ifs with h
  · unfold add32 ck
    rw [Option.bind_some, if_neg (by unfold Fits; omega)]
    rfl
  · rfl

theorem forN_none' {σ : Type} {f : Int → σ → Option σ} {n j : Int} (h0 : 0 ≤ j) (h1 : j < n)
    (h : ∀ s, f j s = none) (s : σ) : forN n f s = none := by
  have := forN_none (n := n.toNat) h0 (by omega) h s
  rwa [Int.toNat_of_nonneg (by omega)] at this

theorem bind_none' {β δ : Type} (x : Option β) {k : β → Option δ} (h : ∀ b, k b = none) : x.bind k = none := by
  cases x with
  | none => rfl
  | some b => exact h b

theorem fillAt32_none {n : Int} (hn : 2147483647 < 2 * n - 1) (pt' : Int → Option γ) (val' : γ → Option ℝ) (w : Mem ℝ) :
    fillAt32 n pt' val' w = none := by
  unfold fillAt32
  refine forN_none' (j := n - 1) (by omega) (by omega) (fun s => ?_) w
  exact bind_none' _ fun g => bind_none' _ fun v => bind_none' _ fun a => bind_none' _ fun w => odd32_none (by omega) _

theorem checkAt32_none {n : Int} (hn : 2147483647 < 2 * n - 1) (pt' : Int → Option γ) (val' : γ → Option ℝ) (w : Mem ℝ) :
    checkAt32 n pt' val' w = none := by
  unfold checkAt32
  refine forN_none' (j := n - 1) (by omega) (by omega) (fun s => ?_) 0
  exact bind_none' _ fun g => bind_none' _ fun v => bind_none' _ fun a => bind_none' _ fun w => odd32_none (by omega) _

/-- A point whose value overflows makes the loop undefined. -/
theorem fillAt32_none_val {n m : Int} (h0 : 0 ≤ m) (h1 : m < n) {pt' : Int → Option γ} {val' : γ → Option ℝ}
    (h : ∀ g, pt' m = some g → val' g = none) (w : Mem ℝ) : fillAt32 n pt' val' w = none := by
  unfold fillAt32
  refine forN_none' h0 h1 (fun s => ?_) w
  cases hg : pt' m with
  | none => rfl
  | some g => rw [Option.bind_some, h g hg]; rfl

theorem checkAt32_none_val {n m : Int} (h0 : 0 ≤ m) (h1 : m < n) {pt' : Int → Option γ} {val' : γ → Option ℝ}
    (h : ∀ g, pt' m = some g → val' g = none) (w : Mem ℝ) : checkAt32 n pt' val' w = none := by
  unfold checkAt32
  refine forN_none' h0 h1 (fun s => ?_) 0
  cases hg : pt' m with
  | none => rfl
  | some g => rw [Option.bind_some, h g hg]; rfl

theorem indexAt3_32_eq {g : Int × Int × Int} (h : 0 ≤ g.1 ∧ 0 ≤ g.2.1 ∧ 0 ≤ g.2.2)
    (h' : g.1 + g.2.1 + g.2.2 + 1 ≤ 2147483647) : indexAt3_32 g = some (indexAt3 g) := by
  unfold indexAt3_32 indexAt3
  rw [add32_eq (fits_of (by omega) (by omega)), Option.bind_some, add32_eq (fits_of (by omega) (by omega)),
    Option.bind_some, add32_eq (fits_of (by omega) (by omega)), Option.map_some]

theorem indexAt3_32_none {g : Int × Int × Int} (h' : 2147483647 < g.1 + g.2.1 + g.2.2 + 1) : indexAt3_32 g = none := by
  unfold indexAt3_32
  unfold add32 ck
  split_ifs with h1
  · rw [Option.bind_some]
    split_ifs with h2
    · rw [Option.bind_some, if_neg (by unfold Fits; omega)]
      rfl
    · rfl
  · rfl

theorem indexAt2_32_eq {g : Int × Int} (h : 0 ≤ g.1 ∧ 0 ≤ g.2) (h' : g.1 + g.2 + 1 ≤ 2147483647) :
    indexAt2_32 g = some (indexAt2 g) := by
  unfold indexAt2_32 indexAt2
  rw [add32_eq (fits_of (by omega) (by omega)), Option.bind_some, add32_eq (fits_of (by omega) (by omega)),
    Option.map_some]

theorem indexAt2_32_none {g : Int × Int} (h' : 2147483647 < g.1 + g.2 + 1) : indexAt2_32 g = none := by
  unfold indexAt2_32
  unfold add32 ck
  split_ifs with h1
  · rw [Option.bind_some, if_neg (by unfold Fits; omega)]
    rfl
  · rfl

end Driver

end FftMpi
