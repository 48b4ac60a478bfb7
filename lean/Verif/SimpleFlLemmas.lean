import Verif.SimpleFl
import Verif.SimpleLemmas
import Verif.DriverFlRun

/-!
# Lemmas about the sample programs with rounding
-/

noncomputable section

namespace FftMpi

variable {ar : Arith} {u v cc tiny big d : ℝ}

namespace Simple

open Driver

/-- The numbers of the points, converted to the type of the array. -/
def numberFl (ar : Arith) (first : Int) (x : Int) : ℝ := ar.conv (number first x)

theorem fillFl_fills {first : Int} (hf : first = 0 ∨ first = 1) {b : Box3} (hb : b.Proper)
    (hs : 2 * b.count + 1 ≤ 2147483647) : Fills b.count (fillFl ar first b) (numberFl ar first) := by
  intro w hw
  have hc := count_nonneg b
  unfold fillFl
  rw [nest_times hb, times_twice]
  obtain ⟨s', e, h⟩ := times_inv
    (fun k (s : Int × Mem ℝ) => s.1 = k + first ∧ s.2 = filled k (numberFl ar first) w) (put1Fl ar first)
    (2 * b.count.toNat) (first, w) ⟨by simp, by simp [filled_zero]⟩ (by
      rintro k hk ⟨n, w'⟩ ⟨rfl, h2⟩
      simp only at h2
      subst h2
      have h3 := filled_set hw (k := k) (by omega) (numberFl ar first)
      unfold put1Fl
      simp only [add_sub_cancel_right]
      rw [show ar.conv ((((k : Int) + first : Int) : ℝ)) = numberFl ar first k from rfl, h3, Option.bind_some,
        add32_eq (fits_of (by omega) (by omega)), Option.map_some]
      exact ⟨_, rfl, by push_cast; ring, rfl⟩)
  rw [e, Option.map_some, h.2]
  have e2 : (((2 * b.count.toNat : Nat)) : Int) = 2 * b.count := by omega
  rw [e2]
  rfl

/-- The operations of the type of the array, where the test programs use `double`. -/
def working (ar : Arith) : Arith := { ar with dsub := ar.sub }

theorem working_ok (R : RoundOK ar u tiny big) : RoundOK (working ar) u tiny big :=
  ⟨R.u0, R.t0, R.add, R.sub, R.mul, R.dmul, R.sub, R.conv⟩

theorem diffFl_checks {first : Int} (hf : first = 0 ∨ first = 1) {b : Box3} (hb : b.Proper)
    (hs : 2 * b.count + 1 ≤ 2147483647) :
    ChecksFl (working ar) b.count (diffFl ar first b) (numberFl ar first) := by
  intro w v hw
  have hc := count_nonneg b
  set d : Int → ℝ := fun x => |ar.sub (v x) (numberFl ar first x)| with hdd
  have hd : ∀ x, 0 ≤ d x := fun x => abs_nonneg _
  unfold diffFl
  rw [nest_times hb, times_twice]
  obtain ⟨s', e, h⟩ := times_inv
    (fun k (s : Int × ℝ) => s.1 = k + first ∧ UpTo k d (fun _ => 0) s.2) (diff1Fl ar first w)
    (2 * b.count.toNat) (first, 0) ⟨by simp, UpTo.zero d _⟩ (by
      rintro k hk ⟨n, y⟩ ⟨rfl, h2⟩
      unfold diff1Fl
      simp only [add_sub_cancel_right]
      rw [hw k (by omega) (by omega), Option.bind_some, add32_eq (fits_of (by omega) (by omega)), Option.map_some]
      exact ⟨_, rfl, by push_cast; ring, h2.nextFl hd⟩)
  rw [e, Option.map_some]
  have e2 : (((2 * b.count.toNat : Nat)) : Int) = 2 * b.count := by omega
  exact ⟨d, _, fun x => Or.inr rfl, rfl, h.2.toFl (Or.inl e2) hd⟩

/-- The numbers of the points are small. -/
theorem numberFl_le (R : RoundOK ar u tiny big) {first : Int} (hf : first = 0 ∨ first = 1) {n x : Int} (h0 : 0 ≤ x)
    (h1 : x < 2 * n) {V : ℝ} (hV : ((2 * n : Int) : ℝ) ≤ V) (hb : V ≤ big) :
    |numberFl ar first x| ≤ V + u * (V + tiny) ∧ |numberFl ar first x - number first x| ≤ u * (V + tiny) := by
  have k0 : (0 : ℝ) ≤ ((x + first : Int) : ℝ) := by exact_mod_cast (by omega : 0 ≤ x + first)
  have k1 : ((x + first : Int) : ℝ) ≤ ((2 * n : Int) : ℝ) := by exact_mod_cast (by omega : x + first ≤ 2 * n)
  have k2 : |number first x| ≤ V := by
    unfold number
    rw [abs_of_nonneg k0]
    exact k1.trans hV
  have k3 := conv_near R (s := numberFl ar first x) (t := number first x) (Or.inr rfl) k2 hb
  have k4 := abs_sub_abs_le_abs_sub (numberFl ar first x) (number first x)
  exact ⟨by linarith, k3⟩

/-- The array after the loop. -/
theorem startFl_ok (R : RoundOK ar u tiny big) {P : Nat} {a : Args3} {f : Nat → Fft3 ℝ} {st : Settings}
    (S : SetUp3F ar P a st f) (e : Bool) {first : Int} (hf : first = 0 ∨ first = 1)
    (hs : ∀ r < P, 2 * (a.ins r).count + 1 ≤ 2147483647) {m : Nat → LMem ℝ} (hb : Bufs P f 0 m) :
    ∃ m1 X, Step e P (fsz f) 0 (fun r => [.loc (onWork (fillFl ar first (a.ins r)))]) m m1 ∧
      Vals P (fun r => (a.ins r).count) (fun _ => numberFl ar first) m1 ∧ Holds P 0 a.ins 0 X m1 := by
  obtain ⟨g, Sg, hg⟩ := S.exact
  have hva := S.args
  obtain ⟨c, rfl, rfl, rfl, _, Rd⟩ := Sg.ready
  have hb' := hb.like (g := g) fun r hr => ⟨(hg r hr).fftsize, (hg r hr).sendsize, (hg r hr).recvsize⟩
  have es : ∀ r < c.P, fsz g r = fsz f r := fun r hr => (hg r hr).fftsize.symm
  obtain ⟨m1, s1, h1⟩ := fillStep e (size := fsz g) (m := m) (cnt := fun r => (c.a.ins r).count)
    (fun r hr => ⟨count_nonneg _, Rd.size_ins hr⟩) hb'.data
    fun r hr => fillFl_fills (ar := ar) hf (hva.properIn r hr).1 (hs r hr)
  obtain ⟨X, hX⟩ := Ready.some_holds Rd.ins_tiles 0 (fun r hr => Rd.size_ins hr) (hb'.congr s1.dom).data
  exact ⟨m1, X, s1.resize es, h1, hX⟩

theorem loop3Fl_one (f : Fft3 ℝ) (J J' : Nat → Junk) :
    loop3Fl ar f false 0 (fun _ => J) (fun _ => J') 1 =
      f.computeF ar J true false 1 0 0 ++ f.computeF ar J' true false (-1) 0 0 := by
  simp [loop3Fl]

end Simple

end FftMpi
