import Verif.PropsDriverArgs

/-!
# C62: exactly when the ranks agree about a seed
-/

namespace FftMpi

open Driver

/-- The command `test3d -i v` or `test2d -i v` with a number `v`: rank `r` has the seed `v + r` (test3d.cpp:323), calls
`error_all` if that is not positive (test3d.cpp:389), and has no value if it is not an `int`. -/
theorem C62_seed {three : Bool} {neg : String → Bool} {P r : Nat} {exe s : String} {v : Int} (h0 : s ≠ "zero") (h1 : s ≠ "step")
    (h2 : s ≠ "index") (hv : atoi s = some v) :
    options three neg P r [exe, "-i", s] =
      if v + r < -2147483648 ∨ 2147483647 < v + r then none
      else if v + r ≤ 0 then some (.error "Invalid initialize setting")
      else some (.ok { Cmd.default with iflag := 3, seed := v + r }) := by
  have hstep : argStep three neg r [exe, "-i", s] 1 Cmd.default =
      (add32 v r).map fun v => .ok (3, { Cmd.default with iflag := 3, seed := v }) := by
    have e : initArg r [exe, "-i", s] 1 Cmd.default = (add32 v r).map fun v => .ok (3, { Cmd.default with iflag := 3, seed := v }) := by
      simp [initArg, argv, h0, h1, h2, hv]
    rw [← e]
    simp [argStep, argv]
  unfold options
  simp only [List.length_cons, List.length_nil, argLoop, hstep]
  by_cases hf : v + r < -2147483648 ∨ 2147483647 < v + r
  · have : add32 v r = none := by unfold add32 ck; exact if_neg (by unfold Fits; omega)
    rw [if_pos hf, this]
    simp
  · have : add32 v r = some (v + r) := by unfold add32 ck; exact if_pos (by unfold Fits; omega)
    rw [if_neg hf, this]
    by_cases hp : v + r ≤ 0
    · simp [hp, argCheck, gridCheck, runCheck, Cmd.default]
    · simp [hp, argCheck, gridCheck, runCheck, Cmd.default]

/-- **C62, part 2, exactly.**  If no seed overflows, all ranks call `error_all` or all go on if and only if the number after `-i`
is positive, or so small that no rank has a positive seed. -/
theorem C62_seed_iff {three : Bool} {neg : String → Bool} {P : Nat} {exe s : String} {v : Int} (hP : 0 < P) (h0 : s ≠ "zero")
    (h1 : s ≠ "step") (h2 : s ≠ "index") (hv : atoi s = some v) (hf : v + P ≤ 2147483648) :
    ((∃ e, ∀ r < P, options three neg P r [exe, "-i", s] = some (.error e)) ∨
      ∀ r < P, ∃ c, options three neg P r [exe, "-i", s] = some (.ok c)) ↔ 0 < v ∨ v + P ≤ 1 := by
  have lo : -2147483648 ≤ v := (atoi_fits hv).1
  have val : ∀ r < P, options three neg P r [exe, "-i", s] =
      if v + r ≤ 0 then some (.error "Invalid initialize setting")
      else some (.ok { Cmd.default with iflag := 3, seed := v + r }) := by
    intro r hr
    rw [C62_seed h0 h1 h2 hv, if_neg (by omega)]
  constructor
  · rintro (⟨e, h⟩ | h)
    · right
      have := h (P - 1) (by omega)
      rw [val _ (by omega)] at this
      by_contra hc
      rw [if_neg (by omega)] at this
      simp at this
    · left
      obtain ⟨c, h⟩ := h 0 hP
      rw [val 0 hP] at h
      by_contra hc
      rw [if_pos (by omega)] at h
      simp at h
  · rintro (h | h)
    · exact Or.inr fun r hr => ⟨_, by rw [val r hr, if_neg (by omega)]⟩
    · exact Or.inl ⟨_, fun r hr => by rw [val r hr, if_pos (by omega)]⟩

/-- On 4 ranks `-i -2` divides the ranks: rank 3 has the seed 1. `-i -3` and `-i 1` do not. -/
example : (¬ ((∃ e, ∀ r < 4, options true (fun _ => false) 4 r ["test3d", "-i", "-2"] = some (.error e)) ∨
      ∀ r < 4, ∃ c, options true (fun _ => false) 4 r ["test3d", "-i", "-2"] = some (.ok c))) ∧
    ((∃ e, ∀ r < 4, options true (fun _ => false) 4 r ["test3d", "-i", "-3"] = some (.error e)) ∨
      ∀ r < 4, ∃ c, options true (fun _ => false) 4 r ["test3d", "-i", "-3"] = some (.ok c)) ∧
    ((∃ e, ∀ r < 4, options false (fun _ => false) 4 r ["test2d", "-i", "1"] = some (.error e)) ∨
      ∀ r < 4, ∃ c, options false (fun _ => false) 4 r ["test2d", "-i", "1"] = some (.ok c)) := by
  refine ⟨fun h => ?_, ?_, ?_⟩
  · have := (C62_seed_iff (v := -2) (by decide) (by decide) (by decide) (by decide) (by decide +kernel) (by decide)).mp h
    omega
  · exact (C62_seed_iff (v := -3) (by decide) (by decide) (by decide) (by decide) (by decide +kernel) (by decide)).mpr (by decide)
  · exact (C62_seed_iff (v := 1) (by decide) (by decide) (by decide) (by decide) (by decide +kernel) (by decide)).mpr (by decide)

end FftMpi
