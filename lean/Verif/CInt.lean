import Verif.Mem

/-!
# 32-bit integers

The other models use unbounded integers for the C type `int`.  Here the operations of the C type are
defined: a signed operation whose mathematical result is not representable is undefined behaviour,
represented by `none`.  Property C48 compares code with these operations with the unbounded models.
-/

namespace FftMpi

/-- Representable in a 32-bit `int`. -/
def Fits (x : Int) : Prop := -2147483648 ≤ x ∧ x ≤ 2147483647

instance (x : Int) : Decidable (Fits x) := by unfold Fits; infer_instance

/-- The result of a signed operation. -/
def ck (x : Int) : Option Int := if Fits x then some x else none

/-- `a + b` -/
def add32 (a b : Int) : Option Int := ck (a + b)
/-- `a - b` -/
def sub32 (a b : Int) : Option Int := ck (a - b)
/-- `a * b` -/
def mul32 (a b : Int) : Option Int := ck (a * b)

/-- Conversion of an unsigned 64-bit value to `int`: reduction modulo 2^32.  (The C++ standard leaves
this to the implementation before C++20; all common compilers reduce.) -/
def wrap32 (x : Int) : Int := (x + 2147483648) % 4294967296 - 2147483648

theorem ck_eq {x : Int} (h : Fits x) : ck x = some x := if_pos h

theorem fits_of {x : Int} (h0 : 0 ≤ x) (h1 : x ≤ 2147483647) : Fits x := ⟨by omega, h1⟩

theorem add32_eq {a b : Int} (h : Fits (a + b)) : add32 a b = some (a + b) := ck_eq h
theorem sub32_eq {a b : Int} (h : Fits (a - b)) : sub32 a b = some (a - b) := ck_eq h
theorem mul32_eq {a b : Int} (h : Fits (a * b)) : mul32 a b = some (a * b) := ck_eq h

theorem wrap32_eq {x : Int} (h : Fits x) : wrap32 x = x := by
  unfold wrap32
  obtain ⟨h1, h2⟩ := h
  rw [Int.emod_eq_of_lt (by omega) (by omega)]
  omega

/-! ## Loops with an invariant -/

variable {σ α : Type}

theorem forFrom_congr (I : Int → σ → Prop) (f g : Int → σ → Option σ) : ∀ (k : Nat) (i : Int) (s : σ),
    I i s →
    (∀ j s, i ≤ j → j < i + k → I j s → g j s = f j s ∧ ∀ s', f j s = some s' → I (j + 1) s') →
    forFrom i k g s = forFrom i k f s ∧ ∀ s', forFrom i k f s = some s' → I (i + k) s' := by
  intro k
  induction k with
  | zero =>
    intro i s hi _
    refine ⟨rfl, ?_⟩
    intro s' hs'
    simp only [forFrom] at hs'
    cases hs'
    simpa using hi
  | succ k ih =>
    intro i s hi h
    obtain ⟨h1, h2⟩ := h i s (by omega) (by push_cast; omega) hi
    simp only [forFrom]
    rw [h1]
    cases hf : f i s with
    | none => simp
    | some t =>
      simp only [Option.bind_some]
      obtain ⟨h3, h4⟩ := ih (i + 1) t (h2 t hf)
        (fun j s hj hj' => h j s (by omega) (by push_cast; omega))
      refine ⟨h3, ?_⟩
      intro s' hs'
      have := h4 s' hs'
      rw [show i + 1 + (k : Int) = i + ((k + 1 : Nat) : Int) by push_cast; ring] at this
      exact this

theorem forN_congr (I : Int → σ → Prop) {f g : Int → σ → Option σ} {n : Int} (hn : 0 ≤ n) {s : σ}
    (h0 : I 0 s)
    (h : ∀ j s, 0 ≤ j → j < n → I j s → g j s = f j s ∧ ∀ s', f j s = some s' → I (j + 1) s') :
    forN n g s = forN n f s ∧ ∀ s', forN n f s = some s' → I n s' := by
  obtain ⟨h1, h2⟩ := forFrom_congr I f g n.toNat 0 s h0
    (fun j s h1 h2 => h j s h1 (by omega))
  refine ⟨h1, fun s' hs' => ?_⟩
  have := h2 s' hs'
  rwa [show (0 : Int) + (n.toNat : Int) = n by omega] at this

/-- A loop whose body first computes a value that does not overflow. -/
theorem forN_bind {n : Int} {p32 : Int → Option Int} {p : Int → Int} {F : Int → Int → σ → Option σ}
    (h : ∀ i, 0 ≤ i → i < n → p32 i = some (p i)) (s : σ) :
    forN n (fun i s => (p32 i).bind fun x => F x i s) s = forN n (fun i s => F (p i) i s) s := by
  rcases le_or_gt 0 n with hn | hn
  · refine (forN_congr (fun _ _ => True) hn trivial ?_).1
    intro j s h1 h2 _
    rw [h j h1 h2]
    exact ⟨rfl, fun _ _ => trivial⟩
  · unfold forN
    rw [show n.toNat = 0 by omega]
    rfl

/-- Two nested loops around a body that moves a counter by `w`. -/
theorem nest32 {n m w : Int} (hn : 0 ≤ n) (hm : 0 ≤ m)
    {body32 body : Int → Int → Int × Mem α → Option (Int × Mem α)}
    (h : ∀ i j M, 0 ≤ i → i < n → 0 ≤ j → j < m →
      body32 i j ((i * m + j) * w, M) = body i j ((i * m + j) * w, M) ∧
        ∀ s', body i j ((i * m + j) * w, M) = some s' → s'.1 = (i * m + j) * w + w) (M : Mem α) :
    forN n (fun i s => forN m (fun j s => body32 i j s) s) ((0 : Int), M) =
      forN n (fun i s => forN m (fun j s => body i j s) s) ((0 : Int), M) := by
  refine (forN_congr (fun i (s : Int × Mem α) => s.1 = i * m * w) hn (by simp) ?_).1
  rintro i ⟨c, M⟩ h1 h2 hc
  simp only at hc
  subst hc
  obtain ⟨h3, h4⟩ := forN_congr (fun j (s : Int × Mem α) => s.1 = (i * m + j) * w)
    (f := fun j s => body i j s) (g := fun j s => body32 i j s) hm (s := (i * m * w, M)) (by simp) (by
      rintro j ⟨c, M⟩ h1' h2' hc
      simp only at hc
      subst hc
      obtain ⟨h5, h6⟩ := h i j M h1 h2 h1' h2'
      refine ⟨h5, fun s' hs' => ?_⟩
      rw [h6 s' hs']; ring)
  refine ⟨h3, fun s' hs' => ?_⟩
  rw [h4 s' hs']; ring

/-- One loop around a body that moves a counter by `w`. -/
theorem nest32_1 {n w : Int} (hn : 0 ≤ n) {body32 body : Int → Int × Mem α → Option (Int × Mem α)}
    (h : ∀ i M, 0 ≤ i → i < n → body32 i (i * w, M) = body i (i * w, M) ∧
        ∀ s', body i (i * w, M) = some s' → s'.1 = i * w + w) (M : Mem α) :
    forN n (fun i s => body32 i s) ((0 : Int), M) = forN n (fun i s => body i s) ((0 : Int), M) := by
  refine (forN_congr (fun i (s : Int × Mem α) => s.1 = i * w) hn (by simp) ?_).1
  rintro i ⟨c, M⟩ h1 h2 hc
  simp only at hc
  subst hc
  obtain ⟨h5, h6⟩ := h i M h1 h2
  refine ⟨h5, fun s' hs' => ?_⟩
  rw [h6 s' hs']; ring

/-! ## The innermost loops of the array versions -/

/-- `for (k = 0; k < n; k++, x += st) dst[x] = src[y++]` from positions `x`, `y`; `d` and `b` are the
offsets of the two array arguments. -/
def row (src : Mem α) (d b n st : Int) (x y : Int) (M : Mem α) : Option ((Int × Int) × Mem α) :=
  forN n (fun _ (s : (Int × Int) × Mem α) =>
    (copy1 src s.2 (d + s.1.1) (b + s.1.2)).map fun m => ((s.1.1 + st, s.1.2 + 1), m)) ((x, y), M)

/-- `row` with `int` arithmetic. -/
def row32 (src : Mem α) (d b n st : Int) (x y : Int) (M : Mem α) : Option ((Int × Int) × Mem α) :=
  forN n (fun _ (s : (Int × Int) × Mem α) =>
    (copy1 src s.2 (d + s.1.1) (b + s.1.2)).bind fun m =>
    (add32 s.1.1 st).bind fun x => (add32 s.1.2 1).map fun y => ((x, y), m)) ((x, y), M)

theorem row32_eq (src : Mem α) (d b : Int) {n st x y : Int} (M : Mem α) (hn : 0 ≤ n) (hst : 0 ≤ st)
    (hx : 0 ≤ x) (hy : 0 ≤ y) (fx : x + n * st ≤ 2147483647) (fy : y + n ≤ 2147483647) :
    row32 src d b n st x y M = row src d b n st x y M ∧
      ∀ s', row src d b n st x y M = some s' → s'.1 = (x + n * st, y + n) := by
  refine forN_congr (fun j (s : (Int × Int) × Mem α) => s.1 = (x + j * st, y + j)) hn (by simp) ?_
  rintro j ⟨⟨x', y'⟩, M⟩ h1 h2 hc
  simp only [Prod.mk.injEq] at hc
  obtain ⟨rfl, rfl⟩ := hc
  have e1 : 0 ≤ j * st := mul_nonneg h1 hst
  have e2 : j * st + st ≤ n * st := by nlinarith
  constructor
  · simp only
    rw [add32_eq (fits_of (by omega) (by omega)), add32_eq (fits_of (by omega) (by omega))]
    cases copy1 src M (d + (x + j * st)) (b + (y + j)) <;> rfl
  · intro s' hs'
    simp only [Option.map_eq_some_iff] at hs'
    obtain ⟨m, _, rfl⟩ := hs'
    simp only [Prod.mk.injEq]
    constructor <;> ring

/-- `for (k = 0; k < n; k++, x += st) { dst[x] = src[y++]; dst[x+1] = src[y++]; }` -/
def pairRow (src : Mem α) (d b n st : Int) (x y : Int) (M : Mem α) :
    Option ((Int × Int) × Mem α) :=
  forN n (fun _ (s : (Int × Int) × Mem α) =>
    (copy1 src s.2 (d + s.1.1) (b + s.1.2)).bind fun m =>
    (copy1 src m (d + (s.1.1 + 1)) (b + (s.1.2 + 1))).map fun m =>
      ((s.1.1 + st, s.1.2 + 2), m)) ((x, y), M)

/-- `pairRow` with `int` arithmetic. -/
def pairRow32 (src : Mem α) (d b n st : Int) (x y : Int) (M : Mem α) :
    Option ((Int × Int) × Mem α) :=
  forN n (fun _ (s : (Int × Int) × Mem α) =>
    (copy1 src s.2 (d + s.1.1) (b + s.1.2)).bind fun m =>
    (add32 s.1.2 1).bind fun y1 => (add32 s.1.1 1).bind fun x1 =>
    (copy1 src m (d + x1) (b + y1)).bind fun m =>
    (add32 y1 1).bind fun y2 => (add32 s.1.1 st).map fun x => ((x, y2), m)) ((x, y), M)

theorem pairRow32_eq (src : Mem α) (d b : Int) {n st x y : Int} (M : Mem α) (hn : 0 ≤ n)
    (hst : 1 ≤ st) (hx : 0 ≤ x) (hy : 0 ≤ y) (fx : x + n * st ≤ 2147483647)
    (fy : y + n * 2 ≤ 2147483647) :
    pairRow32 src d b n st x y M = pairRow src d b n st x y M ∧
      ∀ s', pairRow src d b n st x y M = some s' → s'.1 = (x + n * st, y + n * 2) := by
  refine forN_congr (fun j (s : (Int × Int) × Mem α) => s.1 = (x + j * st, y + j * 2)) hn (by simp) ?_
  rintro j ⟨⟨x', y'⟩, M⟩ h1 h2 hc
  simp only [Prod.mk.injEq] at hc
  obtain ⟨rfl, rfl⟩ := hc
  have e1 : 0 ≤ j * st := mul_nonneg h1 (by omega)
  have e2 : j * st + st ≤ n * st := by nlinarith
  constructor
  · simp only
    rw [add32_eq (fits_of (by omega) (by omega)), add32_eq (fits_of (by omega) (by omega)),
      add32_eq (a := x + j * st) (b := st) (fits_of (by omega) (by omega))]
    cases copy1 src M (d + (x + j * st)) (b + (y + j * 2)) with
    | none => rfl
    | some m =>
      simp only [Option.bind_some, Option.map_some]
      rw [add32_eq (fits_of (by omega) (by omega))]
      cases copy1 src m (d + (x + j * st + 1)) (b + (y + j * 2 + 1)) with
      | none => rfl
      | some m =>
        simp only [Option.bind_some, Option.map_some]
        rw [show y + j * 2 + 1 + 1 = y + j * 2 + 2 by ring]
  · intro s' hs'
    simp only [Option.bind_eq_some_iff, Option.map_eq_some_iff] at hs'
    obtain ⟨_, _, m, _, rfl⟩ := hs'
    simp only [Prod.mk.injEq]
    constructor <;> ring

/-- `for (k = 0; k < n; k++, x += st) { in = x; for (iqty = 0; iqty < q; iqty++)
dst[in++] = src[y++]; }` -/
def multRow (src : Mem α) (d b n st q : Int) (x y : Int) (M : Mem α) :
    Option ((Int × Int) × Mem α) :=
  forN n (fun _ (s : (Int × Int) × Mem α) =>
    (row src d b q 1 s.1.1 s.1.2 s.2).map fun r => ((s.1.1 + st, r.1.2), r.2)) ((x, y), M)

/-- `multRow` with `int` arithmetic. -/
def multRow32 (src : Mem α) (d b n st q : Int) (x y : Int) (M : Mem α) :
    Option ((Int × Int) × Mem α) :=
  forN n (fun _ (s : (Int × Int) × Mem α) =>
    (row32 src d b q 1 s.1.1 s.1.2 s.2).bind fun r =>
    (add32 s.1.1 st).map fun x => ((x, r.1.2), r.2)) ((x, y), M)

theorem multRow32_eq (src : Mem α) (d b : Int) {n st q x y : Int} (M : Mem α) (hn : 0 ≤ n)
    (hq : 0 ≤ q) (hst : q ≤ st) (hx : 0 ≤ x) (hy : 0 ≤ y) (fx : x + n * st ≤ 2147483647)
    (fy : y + n * q ≤ 2147483647) :
    multRow32 src d b n st q x y M = multRow src d b n st q x y M ∧
      ∀ s', multRow src d b n st q x y M = some s' → s'.1 = (x + n * st, y + n * q) := by
  refine forN_congr (fun j (s : (Int × Int) × Mem α) => s.1 = (x + j * st, y + j * q)) hn (by simp) ?_
  rintro j ⟨⟨x', y'⟩, M⟩ h1 h2 hc
  simp only [Prod.mk.injEq] at hc
  obtain ⟨rfl, rfl⟩ := hc
  have e1 : 0 ≤ j * st := mul_nonneg h1 (by omega)
  have e2 : j * st + st ≤ n * st := by nlinarith
  have e3 : 0 ≤ j * q := mul_nonneg h1 hq
  have e4 : j * q + q ≤ n * q := by nlinarith
  obtain ⟨r1, r2⟩ := row32_eq src d b (n := q) (st := 1) (x := x + j * st) (y := y + j * q) M hq
    (by omega) (by omega) (by omega) (by omega) (by omega)
  constructor
  · simp only
    rw [r1, add32_eq (fits_of (by omega) (by omega))]
    cases row src d b q 1 (x + j * st) (y + j * q) M <;> rfl
  · intro s' hs'
    simp only [Option.map_eq_some_iff] at hs'
    obtain ⟨m, hm, rfl⟩ := hs'
    have := r2 m hm
    simp only [Prod.mk.injEq, this]
    constructor <;> ring

end FftMpi
