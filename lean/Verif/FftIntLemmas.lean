import Verif.FftInt
import Verif.FactorLemmas

/-!
# The FFT setup does not overflow when its operands are small
-/

namespace FftMpi

theorem mul64_eq {a b : Int} (h : Fits64 (a * b)) : mul64 a b = some (a * b) := if_pos h

theorem div32_eq {a b : Nat} (hb : 0 < b) (ha : a ≤ 2147483647) : div32 a b = some ((a / b : Nat) : Int) := by
  unfold div32
  rw [if_neg (by omega), Int.tdiv_eq_ediv_of_nonneg (by omega)]
  have : a / b ≤ a := Nat.div_le_self a b
  rw [← Int.natCast_div]
  generalize a / b = q at *
  exact ck_eq (fits_of (by omega) (by omega))

theorem mod32_eq {a b : Nat} (hb : 0 < b) (ha : a ≤ 2147483647) : mod32 a b = some ((a % b : Nat) : Int) := by
  unfold mod32
  rw [if_neg (by omega), Int.tmod_eq_emod_of_nonneg (by omega)]
  have : a % b ≤ a := Nat.mod_le a b
  rw [← Int.natCast_mod]
  generalize a % b = q at *
  exact ck_eq (fits_of (by omega) (by omega))

theorem sqroot32_eq {n : Nat} (h : n ≤ 1073741824) : sqroot32 n = some (sqroot n) := by
  have h0 : Nat.sqrt n ≤ 32768 := by
    by_contra hc
    have : 32769 * 32769 ≤ n := Nat.le_sqrt.mp (by omega)
    omega
  have h1 : (Nat.sqrt n + 1) * (Nat.sqrt n + 1) ≤ 32769 * 32769 := Nat.mul_le_mul (by omega) (by omega)
  unfold sqroot32 sqroot
  rw [add32_eq (fits_of (by omega) (by omega)), Option.bind_some, mul32_eq (by
    refine fits_of (by positivity) ?_
    have : (((Nat.sqrt n + 1) * (Nat.sqrt n + 1) : Nat) : Int) ≤ 32769 * 32769 := by exact_mod_cast h1
    push_cast at this
    omega), Option.map_some]
  simp only
  congr 1
  by_cases c : (Nat.sqrt n + 1) * (Nat.sqrt n + 1) > n
  · rw [if_pos c, if_pos (by exact_mod_cast c)]
    omega
  · rw [if_neg c, if_neg (by
      intro hc
      exact c (by exact_mod_cast hc))]

theorem factor32_eq {n : Nat} (h : n ≤ 1073741824) : factor32 n = some (factor n) := by
  unfold factor32 factor
  rw [sqroot32_eq h]
  rfl

theorem foldlM_some {σ β : Type} {f : σ → β → Option σ} {g : σ → β → σ} : ∀ (l : List β) (s : σ),
    (∀ s, ∀ x ∈ l, f s x = some (g s x)) → l.foldlM f s = some (l.foldl g s) := by
  intro l
  induction l with
  | nil => intro s _; rfl
  | cons x l ih =>
    intro s h
    rw [List.foldlM_cons, h s x (by simp)]
    exact ih _ fun s y hy => h s y (by simp [hy])

theorem procGrid32_eq {n : Nat} (h0 : 0 < n) (h : n ≤ 1073741824) (fp : ℝ → ℝ) (nx ny nz : Nat) :
    procGrid32 fp n nx ny nz = some (procGrid fp n nx ny nz) := by
  unfold procGrid32 procGrid
  rw [factor32_eq h, Option.bind_some, sqroot32_eq h, Option.bind_some]
  simp only
  rw [foldlM_some _ _ ?_]
  · rfl
  intro s i hi
  have hi' : i < (factor n).length := List.mem_range.mp hi
  refine foldlM_some _ _ ?_
  intro s j hj
  have hj' : j < (factor n).length := by rw [List.mem_range'_1] at hj; omega
  have ei : (factor n).getD i 0 = (factor n)[i] := by simp [hi']
  have ej : (factor n).getD j 0 = (factor n)[j] := by simp [hj']
  have di := mem_factor h0 (List.getElem_mem hi')
  have dj := mem_factor h0 (List.getElem_mem hj')
  rw [ei, ej]
  generalize (factor n)[i] = x at *
  generalize (factor n)[j] = y at *
  have hx : x ≤ 32768 := by
    by_contra hc
    have := Nat.mul_le_mul (show 32769 ≤ x by omega) (show 32769 ≤ x by omega)
    have := di.2
    omega
  have hy : y ≤ 32768 := by
    by_contra hc
    have := Nat.mul_le_mul (show 32769 ≤ y by omega) (show 32769 ≤ y by omega)
    have := dj.2
    omega
  have hxy : x * y ≤ 32768 * 32768 := Nat.mul_le_mul hx hy
  have hk : x * y * (n / x / y) ≤ n := by
    rw [Nat.div_div_eq_div_mul]
    exact Nat.mul_div_le n (x * y)
  rw [mul32_eq (by
    refine fits_of (by positivity) ?_
    have : ((x * y : Nat) : Int) ≤ 32768 * 32768 := by exact_mod_cast hxy
    push_cast at this
    omega), Option.bind_some, mul32_eq (by
    refine fits_of (by positivity) ?_
    have : ((x * y * (n / x / y) : Nat) : Int) ≤ n := by exact_mod_cast hk
    push_cast at this ⊢
    omega), Option.map_some]
  congr 1
  have e : ((x : Int) * y * ((n / x / y : Nat) : Int) ≠ n) ↔ (x * y * (n / x / y) ≠ n) := by
    constructor
    · intro h1 h2; exact h1 (by exact_mod_cast h2)
    · intro h1 h2; exact h1 (by exact_mod_cast h2)
  simp only [e]

theorem procGrid2_32_eq {n : Nat} (h0 : 0 < n) (h : n ≤ 1073741824) (fp : ℝ → ℝ) (nx ny : Nat) :
    procGrid2_32 fp n nx ny = some (procGrid2 fp n nx ny) := by
  unfold procGrid2_32 procGrid2
  rw [factor32_eq h, Option.bind_some, sqroot32_eq h, Option.bind_some]
  simp only
  rw [foldlM_some _ _ ?_]
  · rfl
  intro s i hi
  refine foldlM_some _ _ ?_
  intro s j hj
  generalize (factor n).getD i 0 = x
  have hk : x * (n / x) ≤ n := Nat.mul_div_le n x
  rw [mul32_eq (by
    refine fits_of (by positivity) ?_
    have : ((x * (n / x) : Nat) : Int) ≤ n := by exact_mod_cast hk
    push_cast at this ⊢
    omega), Option.map_some]
  congr 1
  have e : ((x : Int) * ((n / x : Nat) : Int) ≠ n) ↔ (x * (n / x) ≠ n) := by
    constructor
    · intro h1 h2; exact h1 (by exact_mod_cast h2)
    · intro h1 h2; exact h1 (by exact_mod_cast h2)
  simp only [e]

theorem gridCoords32_eq {np : Nat × Nat × Nat} {P : Nat} (h : np.1 * np.2.1 * np.2.2 = P) (hP : 0 < P)
    (hP' : P ≤ 2147483647) {me : Nat} (hme : me < P) :
    gridCoords32 np me = some (((gridCoords np me).1 : Int), ((gridCoords np me).2.1 : Int), ((gridCoords np me).2.2 : Int)) := by
  obtain ⟨a, b, c⟩ := np
  simp only at h
  have ha : 0 < a := by rcases Nat.eq_zero_or_pos a with h0 | h0; · subst h0; simp at h; omega
                        · exact h0
  have hb : 0 < b := by rcases Nat.eq_zero_or_pos b with h0 | h0; · subst h0; simp at h; omega
                        · exact h0
  have hc : 0 < c := by rcases Nat.eq_zero_or_pos c with h0 | h0; · subst h0; simp at h; omega
                        · exact h0
  have hab : a * b ≤ P := by rw [← h]; exact Nat.le_mul_of_pos_right _ hc
  have hd : me / a ≤ me := Nat.div_le_self _ _
  unfold gridCoords32 gridCoords
  simp only
  rw [mod32_eq ha (by omega), Option.bind_some, div32_eq ha (by omega), Option.bind_some,
    mod32_eq hb (by omega), Option.bind_some, mul32_eq (by
      refine fits_of (by positivity) ?_
      have : ((a * b : Nat) : Int) ≤ P := by exact_mod_cast hab
      push_cast at this
      omega), Option.bind_some, ← Nat.cast_mul, div32_eq (Nat.mul_pos ha hb) (by omega), Option.map_some]

theorem gridCoords2_32_eq {np : Nat × Nat} {P : Nat} (h : np.1 * np.2 = P) (hP : 0 < P)
    (hP' : P ≤ 2147483647) {me : Nat} (hme : me < P) :
    gridCoords2_32 np me = some (((gridCoords2 np me).1 : Int), ((gridCoords2 np me).2 : Int)) := by
  obtain ⟨a, b⟩ := np
  simp only at h
  have ha : 0 < a := by rcases Nat.eq_zero_or_pos a with h0 | h0; · subst h0; simp at h; omega
                        · exact h0
  unfold gridCoords2_32 gridCoords2
  simp only
  rw [mod32_eq ha (by omega), Option.bind_some, div32_eq ha (by omega), Option.map_some]

theorem blockLo32_eq {ip n np : Nat} (hip : ip < np) (h : np * n ≤ 2147483647) :
    blockLo32 ip n np = some (blockLo ip n np) := by
  have h1 : ip * n ≤ np * n := Nat.mul_le_mul_right n hip.le
  unfold blockLo32 blockLo
  rw [mul32_eq (by rw [← Nat.cast_mul]; exact fits_of (by omega) (by omega)), Option.bind_some,
    ← Nat.cast_mul, div32_eq (by omega) (by omega)]

theorem blockHi32_eq {ip n np : Nat} (hip : ip < np) (hn : 0 < n) (h : np * n ≤ 2147483647) :
    blockHi32 ip n np = some (blockHi ip n np) := by
  have h1 : (ip + 1) * n ≤ np * n := Nat.mul_le_mul_right n hip
  have h2 : ip + 1 ≤ (ip + 1) * n := Nat.le_mul_of_pos_right _ hn
  have h3 : (ip + 1) * n / np ≤ (ip + 1) * n := Nat.div_le_self _ _
  unfold blockHi32 blockHi
  rw [add32_eq (fits_of (by omega) (by omega)), Option.bind_some,
    show ((ip : Int) + 1) = ((ip + 1 : Nat) : Int) by push_cast; rfl,
    mul32_eq (by rw [← Nat.cast_mul]; exact fits_of (by omega) (by omega)), Option.bind_some,
    ← Nat.cast_mul, div32_eq (by omega) (by omega), Option.bind_some]
  generalize (ip + 1) * n / np = q at *
  exact sub32_eq ⟨by omega, by omega⟩

end FftMpi
