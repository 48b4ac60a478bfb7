import Verif.PropsTune
import Verif.PropsGridFp
import Mathlib.Data.Rat.Floor

/-!
# `tune` with rounding to 53 binary digits

An arithmetic that satisfies `TimeFp`, and what rounding errors do to the budget.
-/

namespace FftMpi

open Driver

/-- Rounding to 53 binary digits, of rational numbers. -/
def rndQ53 (x : ℚ) : ℚ := (round (x / (2 : ℚ) ^ (Int.log 2 |x| - 52)) : ℚ) * (2 : ℚ) ^ (Int.log 2 |x| - 52)

theorem log_cast (x : ℚ) : Int.log 2 |(x : ℝ)| = Int.log 2 |x| := by
  by_cases hx : x = 0
  · simp [hx]
  have h1 : 0 < |x| := abs_pos.mpr hx
  have h2 : 0 < |(x : ℝ)| := by exact_mod_cast h1
  have key : ∀ n : Int, n ≤ Int.log 2 |(x : ℝ)| ↔ n ≤ Int.log 2 |x| := by
    intro n
    rw [← Int.zpow_le_iff_le_log (R := ℝ) (by decide) h2, ← Int.zpow_le_iff_le_log (R := ℚ) (by decide) h1]
    rw [← Rat.cast_abs, ← Rat.cast_le (K := ℝ)]
    push_cast
    rfl
  exact le_antisymm ((key _).mp le_rfl) ((key _).mpr le_rfl)

theorem rndQ53_cast (x : ℚ) : ((rndQ53 x : ℚ) : ℝ) = rnd53 x := by
  unfold rndQ53 rnd53
  rw [log_cast, ← Rat.round_cast (α := ℝ)]
  push_cast
  rfl

/-- Rounding to 53 binary digits satisfies the assumption of the theorems about `tune`. -/
theorem timeFp_rndQ53 : TimeFp rndQ53 where
  mono x y h := by
    rw [← Rat.cast_le (K := ℝ), rndQ53_cast, rndQ53_cast]
    exact rounding53.mono (by exact_mod_cast h)
  int n h := by
    have := rounding53.int n h
    rw [← Rat.cast_intCast, ← rndQ53_cast] at this
    exact_mod_cast this
  rel x := by
    have := rnd53_err x
    rw [← rndQ53_cast] at this
    have h : |rndQ53 x - x| ≤ 1 / 2 ^ 53 * |x| := by
      rw [← Rat.cast_le (K := ℝ)]
      push_cast
      exact this
    linarith

/-- A clock by which `setup` takes one second and a trial `2^-60` seconds, on a machine that rounds. -/
def roundClock : Clock where
  setup0 := 1
  run _ := took (1 / 2 ^ 60)
  fp := rndQ53

/-- **C35 (rounding).**  The trials together take more than `tmax`, although ten of them are run because they seem to take
exactly `tmax`: the sum of the times of `setup` and the FFT is rounded.  So `C35_time` cannot do without the rounding
error. -/
theorem C35_rounding : ∃ r, tune (fun _ => 8) roundClock roundClock false { freely with tmax := 10 } newTuneSt =
      some (.ok r) ∧ 10 < (r.runs.map (Trial.cost 1 (1 / 2 ^ 60))).sum ∧
    (r.runs.map (Trial.cost 1 (1 / 2 ^ 60))).sum ≤ 10 * (1 + 1 / 2 ^ 50) := by
  have hbig : ∀ k, (roundClock.run k).tfft < tuneBIG := fun k => by norm_num [roundClock, took, tuneBIG]
  have r1 : rndQ53 (1 / 2 ^ 60) = 1 / 2 ^ 60 := by
    have : rnd53 (1 / 2 ^ 60) = 1 / 2 ^ 60 := by
      rw [rnd53_eq (e := -60) (z := 2 ^ 52)] <;> norm_num [abs_of_pos]
    refine Rat.cast_injective (α := ℝ) ?_
    rw [rndQ53_cast]
    push_cast
    exact this
  have r2 : rndQ53 (1 + 1 / 2 ^ 60) = 1 := by
    have : rnd53 (1 + 1 / 2 ^ 60) = 1 := by
      rw [rnd53_eq (e := 0) (z := 2 ^ 52)] <;> norm_num [abs_of_pos]
    refine Rat.cast_injective (α := ℝ) ?_
    rw [rndQ53_cast]
    push_cast
    exact this
  have r3 : rndQ53 10 = 10 := by exact_mod_cast timeFp_rndQ53.int 10 (by norm_num)
  have hb : tuneBudget roundClock.fp { freely with tmax := 10 } roundClock.setup0 (roundClock.run 0).tfft =
      some ⟨1, 0, 10⟩ := by
    norm_num at r1 r2
    norm_num [tuneBudget, freely, roundClock, took, r1, r2, r3]
  obtain ⟨r, e, R⟩ := tune_report (fs := fun _ => 8) (own := roundClock) (root := roundClock) (sf := false)
    (t := { freely with tmax := 10 }) (s := newTuneSt) (by decide +kernel) hb hbig
  refine ⟨r, e, ?_, ?_⟩
  · rw [R.cost]
    norm_num [tunePlan]
  · rcases C35_time e timeFp_rndQ53 hbig (by norm_num) (by norm_num [roundClock]) (by norm_num [roundClock, took])
      with h | h
    · exact h
    · norm_num [roundClock, took] at h

end FftMpi
