import Verif.PropsDriverOut

/-!
# C63: exactly when the final grid of mode 2 is printed
-/

namespace FftMpi

open Driver

theorem printed_length {γ : Type} {n : Int} {pt : Int → Option γ} {w : Mem ℝ} {l : List (γ × ℝ × ℝ)}
    (h : printed n pt w = some l) : l.length = n.toNat := by
  unfold printed forN at h
  simpa using forFrom_length _ _ _ _ h

/-- **C63, exactly (mode 2, 3d).**  A rank prints the lines of its part of the result if and only if it has as many points on output as on
input. -/
theorem C63_final_iff {b b' : Box3} (hb : b.Proper) (hb' : b'.Proper) {w : Mem ℝ} (hw : accessible w 0 (2 * b'.count)) :
    (∃ l, output3 1 b b' w = some l ∧ Lines3 0 b' w l) ↔ b.count = b'.count := by
  refine ⟨?_, fun hc => C63_output_final_partial hb hb' hc hw⟩
  rintro ⟨l, h1, h2⟩
  obtain ⟨l', h3, h4⟩ := boxLines3 hb' hw
  have n1 : l.length = (nfft3 b).toNat := printed_length h1
  have n2 := printed_length h3
  have hp : l.Perm l' := by
    refine (List.perm_ext_iff_of_nodup (List.Nodup.of_map _ h2.1) (List.Nodup.of_map _ h4.1)).mpr ?_
    rintro ⟨⟨i, j, k⟩, x, y⟩
    rw [h2.2, h4.2]
  have := hp.length_eq
  rw [n1, n2, nfft3_eq hb, nfft3_eq hb'] at this
  have := count_nonneg b
  have := count_nonneg b'
  omega

/-- **C63, exactly (mode 2, 2d).** -/
theorem C63_final_iff_2d {b b' : Box2} (hb : b.Proper) (hb' : b'.Proper) {w : Mem ℝ} (hw : accessible w 0 (2 * b'.count)) :
    (∃ l, output2 1 b b' w = some l ∧ Lines2 0 b' w l) ↔ b.count = b'.count := by
  refine ⟨?_, fun hc => C63_output_final_2d_partial hb hb' hc hw⟩
  rintro ⟨l, h1, h2⟩
  obtain ⟨l', h3, h4⟩ := boxLines2 hb' hw
  have n1 : l.length = (nfft2 b).toNat := printed_length h1
  have n2 := printed_length h3
  have hp : l.Perm l' := by
    refine (List.perm_ext_iff_of_nodup (List.Nodup.of_map _ h2.1) (List.Nodup.of_map _ h4.1)).mpr ?_
    rintro ⟨⟨i, j⟩, x, y⟩
    rw [h2.2, h4.2]
  have := hp.length_eq
  rw [n1, n2, nfft2_eq hb, nfft2_eq hb'] at this
  have : 0 ≤ b.count := by rw [← Box2.lift_count]; exact count_nonneg _
  have : 0 ≤ b'.count := by rw [← Box2.lift_count]; exact count_nonneg _
  omega

/-- `mpirun -np 3 test3d -g 2 4 4 -pin 1 1 3 -pout 3 1 1 -m 2 -o`: rank 1, with 8 points on input and 16 on output, does not print its
part of the result. -/
example {w : Mem ℝ} (hw : accessible w 0 32) :
    ¬∃ l, output3 1 (gridBox (1, 1, 3) 2 4 4 1) (gridBox (3, 1, 1) 2 4 4 1) w = some l ∧ Lines3 0 (gridBox (3, 1, 1) 2 4 4 1) w l := by
  rw [C63_final_iff (gridBox_sizes _ _ _ _ _) (gridBox_sizes _ _ _ _ _) (by
    rw [show (gridBox (3, 1, 1) 2 4 4 1).count = 16 by decide]; exact hw)]
  decide

end FftMpi
