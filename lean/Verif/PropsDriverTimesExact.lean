import Verif.PropsDriverTimes

/-!
# C77: exactly when the flop rate has a value
-/

noncomputable section

namespace FftMpi

open Driver

/-- **C77, exactly.**  In a run with a clock that does not run backwards, the rate that the test programs print has a value if and
only if there is at least one FFT and the readings of the clock before and after the FFTs differ. -/
theorem C77_rate_iff (o : TimeOpt) {rnd tick ln : ℝ → ℝ} (R : Nearest rnd)
    (hln : ∀ x, 1 ≤ x → Within (1 / 2 ^ 50) (ln x) (Real.log x)) (ht : Monotone tick) {l : List (Act × ℝ)} {s : TimeSt}
    (hl : l.map Prod.fst = testActs o) (h0 : ∀ x ∈ l, 0 ≤ x.2) {sizes : List Nat} (hs : ∀ n ∈ sizes, 1 ≤ n)
    (hN : sizes.prod ≤ 2 ^ 53) :
    ∃ a b : ℝ, a ≤ b ∧ spent (Does isFft) l ≤ b - a ∧ b - a ≤ spent (Does isFft) l + spent Idle l ∧
      (TimeSt.exec rnd tick l s).val .timefft = rnd (tick b - tick a) ∧
      ((∃ rate, floprate o rnd ln (TimeSt.exec rnd tick l s).val sizes = some rate) ↔ 0 < o.nloop ∧ tick a ≠ tick b) := by
  obtain ⟨⟨i, j, H⟩, -⟩ := C77_times o
  obtain ⟨a, b, e, -, h1, h2⟩ := C77_work H (rnd := rnd) (tick := tick) (s := s) hl h0
  have hsp : 0 ≤ spent (Does isFft) l := spent_nonneg h0
  have hab : a ≤ b := by linarith
  have hd : 0 ≤ tick b - tick a := sub_nonneg.mpr (ht hab)
  have r0 : rnd 0 = 0 := by simpa using R.int 0 (by simp)
  refine ⟨a, b, hab, h1, h2, e, ⟨?_, ?_⟩⟩
  · rintro ⟨rate, h⟩
    unfold floprate at h
    rw [Option.bind_eq_some_iff] at h
    obtain ⟨x, -, h⟩ := h
    rw [Option.bind_eq_some_iff] at h
    obtain ⟨one, hone, h⟩ := h
    have hne : one ≠ 0 := by
      rintro rfl
      simp [fquot] at h
    unfold onetime fquot at hone
    rw [e] at hone
    constructor
    · by_contra hc
      have : nfftOf o = 0 := by unfold nfftOf; split <;> omega
      simp [this] at hone
    · intro hc
      rw [hc, sub_self, r0, zero_div, r0] at hone
      split_ifs at hone
      exact hne (Option.some.inj hone).symm
  · rintro ⟨hn, hne⟩
    have hp : 0 < (TimeSt.exec rnd tick l s).val .timefft := by
      rw [e]
      exact (R.near _ hd).pos (by norm_num) (lt_of_le_of_ne hd (fun h => hne (by linarith)))
    obtain ⟨one, rate, -, -, h, -⟩ := C77_report o R hln hp hn hs hN
    exact ⟨rate, h⟩

/-- One forward and one inverse FFT of 8 x 8 x 8 points, each action taking a second: with an exact clock the rate has a value, with a
clock that stands still it has none. -/
example : let o : TimeOpt := ⟨3, false, 0, 1, false, false, false⟩
    let l := (testActs o).map fun a => (a, (1 : ℝ))
    (∃ rate, floprate o rnd53 Real.log (TimeSt.exec rnd53 id l ⟨0, fun _ => 0⟩).val [8, 8, 8] = some rate) ∧
    ¬ ∃ rate, floprate o rnd53 Real.log (TimeSt.exec rnd53 (fun _ => 5) l ⟨0, fun _ => 0⟩).val [8, 8, 8] = some rate := by
  intro o l
  have hm : l.map Prod.fst = testActs o := by
    show ((testActs o).map fun a => (a, (1 : ℝ))).map Prod.fst = testActs o
    rw [List.map_map]; exact List.map_id _
  have h0 : ∀ x ∈ l, 0 ≤ x.2 := by
    intro x hx
    obtain ⟨a, -, rfl⟩ := List.mem_map.mp hx
    exact zero_le_one
  have hln : ∀ x, 1 ≤ x → Within (1 / 2 ^ 50) (Real.log x) (Real.log x) := by
    intro x hx
    have := Real.log_nonneg hx
    constructor <;> nlinarith
  constructor
  · obtain ⟨a, b, -, h1, -, -, h⟩ := C77_rate_iff o nearest53 hln monotone_id (s := ⟨0, fun _ => 0⟩) hm h0
      (sizes := [8, 8, 8]) (by decide) (by decide)
    refine h.mpr ⟨by decide, fun hab => ?_⟩
    have hj : Act.job (.fft 1) ∈ testActs o := by
      rw [← List.count_pos_iff, (C77_count o).1 1]
      decide
    have : (1 : ℝ) ≤ spent (Does isFft) l := by
      refine List.single_le_sum ?_ _ (List.mem_map.mpr ⟨(.job (.fft 1), 1), List.mem_map.mpr ⟨_, hj, rfl⟩, ?_⟩)
      · intro y hy
        obtain ⟨x, hx, rfl⟩ := List.mem_map.mp hy
        split_ifs
        · exact h0 x hx
        · exact le_refl _
      · exact if_pos ⟨_, rfl, by trivial⟩
    have : a = b := hab
    linarith
  · obtain ⟨a, b, -, -, -, -, h⟩ := C77_rate_iff o nearest53 hln (tick := fun _ => 5) monotone_const (s := ⟨0, fun _ => 0⟩) hm h0
      (sizes := [8, 8, 8]) (by decide) (by decide)
    exact fun hr => (h.mp hr).2 rfl

end FftMpi
