import Verif.Simple
import Verif.DriverRun
import Verif.Fft3d32Main

/-!
# Lemmas on the sample programs
-/

noncomputable section

namespace FftMpi

namespace Simple

/-! ## Factors -/

theorem divisorFrom_ok {n p : Nat} (h1 : 1 ≤ p) (h2 : p ≤ n) :
    ∃ q, divisorFrom n p = some q ∧ p ≤ q ∧ q ∣ n ∧ ∀ d, p ≤ d → d ∣ n → q ≤ d := by
  induction hk : n - p generalizing p with
  | zero =>
    have e : p = n := by omega
    subst e
    refine ⟨p, ?_, le_rfl, dvd_rfl, fun d hd _ => hd⟩
    unfold divisorFrom
    rw [if_neg (by omega)]
  | succ k ih =>
    unfold divisorFrom
    rw [if_pos (by omega), if_neg (by omega)]
    by_cases hm : n % p = 0
    · rw [if_pos hm]
      exact ⟨p, rfl, le_rfl, Nat.dvd_of_mod_eq_zero hm, fun d hd _ => hd⟩
    · rw [if_neg hm]
      obtain ⟨q, e1, e2, e3, e4⟩ := ih (p := p + 1) (by omega) (by omega) (by omega)
      refine ⟨q, e1, by omega, e3, fun d hd hdn => ?_⟩
      rcases Nat.eq_or_lt_of_le hd with rfl | hd
      · exact absurd (Nat.mod_eq_zero_of_dvd hdn) hm
      · exact e4 d hd hdn

/-! ## Nested loops -/

/-- `n` times `f`. -/
def times {σ : Type} (f : σ → Option σ) : Nat → σ → Option σ
  | 0, s => some s
  | n + 1, s => (times f n s).bind f

theorem times_add {σ : Type} (f : σ → Option σ) (m n : Nat) (s : σ) :
    times f (m + n) s = (times f m s).bind (times f n) := by
  induction n with
  | zero => cases h : times f m s <;> simp [times, h]
  | succ n ih =>
    rw [← Nat.add_assoc]
    simp only [times]
    rw [ih, Option.bind_assoc]

theorem forN_times {σ : Type} (f : σ → Option σ) (n : Int) (s : σ) : forN n (fun _ s => f s) s = times f n.toNat s := by
  unfold forN
  induction n.toNat with
  | zero => rfl
  | succ k ih => rw [forFrom_succ_last, ih]; rfl

theorem times_times {σ : Type} (f : σ → Option σ) (m n : Nat) (s : σ) :
    times (fun s => times f m s) n s = times f (n * m) s := by
  induction n with
  | zero => rw [Nat.zero_mul]; rfl
  | succ n ih => rw [Nat.succ_mul, times_add f, ← ih]; rfl

theorem nest_times {σ : Type} {b : Box3} (hb : b.Proper) (f : σ → Option σ) (s : σ) :
    nest b f s = times f b.count.toNat s := by
  obtain ⟨h1, h2, h3⟩ := hb
  unfold nest
  simp only [forN_times, times_times]
  congr 1
  have e : b.count = b.isize * b.jsize * b.ksize := by rw [← Driver.nfft3_eq ⟨h1, h2, h3⟩]; rfl
  rw [e, Int.toNat_mul (by positivity) h3, Int.toNat_mul h1 h2]
  ring

theorem times_twice {σ : Type} (f : σ → Option σ) (n : Nat) (s : σ) :
    times (fun s => (f s).bind f) n s = times f (2 * n) s := by
  have e : (fun s => (f s).bind f) = fun s => times f 2 s := by
    funext s
    simp [times]
  rw [e, times_times, Nat.mul_comm]

/-- An invariant of repetition. -/
theorem times_inv {σ : Type} (I : Nat → σ → Prop) (f : σ → Option σ) (n : Nat) (s : σ) (h0 : I 0 s)
    (hs : ∀ k < n, ∀ s, I k s → ∃ s', f s = some s' ∧ I (k + 1) s') : ∃ s', times f n s = some s' ∧ I n s' := by
  induction n with
  | zero => exact ⟨s, rfl, h0⟩
  | succ n ih =>
    obtain ⟨s1, e1, i1⟩ := ih fun k hk => hs k (by omega)
    obtain ⟨s2, e2, i2⟩ := hs n (by omega) s1 i1
    exact ⟨s2, by simp only [times]; rw [e1]; exact e2, i2⟩

/-- The numbers of the points. -/
def number (first : Int) (x : Int) : ℝ := ((x + first : Int) : ℝ)

theorem fill_fills {first : Int} (hf : first = 0 ∨ first = 1) {b : Box3} (hb : b.Proper)
    (hs : 2 * b.count + 1 ≤ 2147483647) : Driver.Fills b.count (fill first b) (number first) := by
  intro w hw
  have hc := count_nonneg b
  unfold fill
  rw [nest_times hb, times_twice]
  obtain ⟨s', e, h⟩ := times_inv
    (fun k (s : Int × Mem ℝ) => s.1 = k + first ∧ s.2 = Driver.filled k (number first) w) (put1 first)
    (2 * b.count.toNat) (first, w) ⟨by simp, by simp [Driver.filled_zero]⟩ (by
      rintro k hk ⟨n, w'⟩ ⟨rfl, h2⟩
      simp only at h2
      subst h2
      have h3 := Driver.filled_set hw (k := k) (by omega) (number first)
      unfold put1
      simp only [add_sub_cancel_right]
      rw [show ((((k : Int) + first : Int) : ℝ)) = number first k from rfl, h3, Option.bind_some,
        add32_eq (fits_of (by omega) (by omega)), Option.map_some]
      exact ⟨_, rfl, by push_cast; ring, rfl⟩)
  rw [e, Option.map_some, h.2]
  have e2 : (((2 * b.count.toNat : Nat)) : Int) = 2 * b.count := by omega
  rw [e2]
  rfl

theorem diff_checks {first : Int} (hf : first = 0 ∨ first = 1) {b : Box3} (hb : b.Proper)
    (hs : 2 * b.count + 1 ≤ 2147483647) : Driver.Checks b.count (diff first b) (number first) := by
  intro w v hw
  have hc := count_nonneg b
  unfold diff
  rw [nest_times hb, times_twice]
  obtain ⟨s', e, h⟩ := times_inv
    (fun k (s : Int × ℝ) => s.1 = k + first ∧ Driver.UpTo k v (number first) s.2) (diff1 first w)
    (2 * b.count.toNat) (first, 0) ⟨by simp, Driver.UpTo.zero _ _⟩ (by
      rintro k hk ⟨n, y⟩ ⟨rfl, h2⟩
      unfold diff1
      simp only [add_sub_cancel_right]
      rw [hw k (by omega) (by omega), Option.bind_some, add32_eq (fits_of (by omega) (by omega)), Option.map_some]
      exact ⟨_, rfl, by push_cast; ring, h2.next⟩)
  rw [e, Option.map_some]
  have e2 : (((2 * b.count.toNat : Nat)) : Int) = 2 * b.count := by omega
  exact ⟨_, rfl, Driver.UpTo.checks (Or.inl e2) h.2⟩

/-! ## Boxes -/

theorem count_le {b : Box3} {n1 n2 n3 : Nat} (hb : b.Proper) (hw : b.Within n1 n2 n3) : b.count ≤ n1 * n2 * n3 := by
  rw [← Driver.nfft3_eq hb]
  obtain ⟨p1, p2, p3⟩ := hb
  obtain ⟨w1, w2, w3⟩ := hw
  unfold Driver.nfft3
  have h1 : b.isize ≤ n1 := by unfold Box3.isize; omega
  have h2 : b.jsize ≤ n2 := by unfold Box3.jsize; omega
  have h3 : b.ksize ≤ n3 := by unfold Box3.ksize; omega
  gcongr

theorem factors_le {np : Nat × Nat × Nat} {P : Nat} (h : np.1 * np.2.1 * np.2.2 = P) (hP : 0 < P) :
    (0 < np.1 ∧ np.1 ≤ P) ∧ (0 < np.2.1 ∧ np.2.1 ≤ P) ∧ (0 < np.2.2 ∧ np.2.2 ≤ P) := by
  have p1 : 0 < np.1 := by
    rcases Nat.eq_zero_or_pos np.1 with h0 | h0
    · rw [h0] at h; simp at h; omega
    · exact h0
  have p2 : 0 < np.2.1 := by
    rcases Nat.eq_zero_or_pos np.2.1 with h0 | h0
    · rw [h0] at h; simp at h; omega
    · exact h0
  have p3 : 0 < np.2.2 := by
    rcases Nat.eq_zero_or_pos np.2.2 with h0 | h0
    · rw [h0] at h; simp at h; omega
    · exact h0
  refine ⟨⟨p1, ?_⟩, ⟨p2, ?_⟩, ⟨p3, ?_⟩⟩
  · rw [← h, mul_assoc]; exact Nat.le_mul_of_pos_right _ (Nat.mul_pos p2 p3)
  · rw [← h, mul_comm np.1, mul_assoc]; exact Nat.le_mul_of_pos_right _ (Nat.mul_pos p1 p3)
  · rw [← h]; exact Nat.le_mul_of_pos_left _ (Nat.mul_pos p1 p2)

theorem box_eq {np : Nat × Nat × Nat} {P n1 n2 n3 : Nat} (h : np.1 * np.2.1 * np.2.2 = P) (hP : 0 < P)
    (h1 : 0 < n1 ∧ P * n1 ≤ 2147483647) (h2 : 0 < n2 ∧ P * n2 ≤ 2147483647) (h3 : 0 < n3 ∧ P * n3 ≤ 2147483647)
    {me : Nat} (hme : me < P) : box np n1 n2 n3 me = some (gridBox np n1 n2 n3 me) := by
  obtain ⟨⟨_, l1⟩, ⟨_, l2⟩, ⟨_, l3⟩⟩ := factors_le h hP
  obtain ⟨c1, c2, c3⟩ := (gridCoords_bij h hP).1 me hme
  have hPi : P ≤ 2147483647 := le_trans (Nat.le_mul_of_pos_right P h1.1) h1.2
  have k1 := le_trans (Nat.mul_le_mul_right n1 l1) h1.2
  have k2 := le_trans (Nat.mul_le_mul_right n2 l2) h2.2
  have k3 := le_trans (Nat.mul_le_mul_right n3 l3) h3.2
  unfold box gridBox
  simp only [Option.bind_eq_bind, gridCoords32_eq h hP hPi hme, Option.bind_some, blockLo32_eq c1 k1,
    blockHi32_eq c1 h1.1 k1, blockLo32_eq c2 k2, blockHi32_eq c2 h2.1 k2, blockLo32_eq c3 k3, blockHi32_eq c3 h3.1 k3]
  rfl

end Simple

end FftMpi
