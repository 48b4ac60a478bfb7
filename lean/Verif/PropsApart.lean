import Verif.PropsExact
import Verif.PropsFft3dBad
import Verif.PropsFft2dMore

/-!
# C26, exactly: for which layouts do separate arrays work?

`C26_forward_partial` and `C26_backward_partial` give layouts for which `compute(in,out,flag)` with separate arrays is right.
Here: for every other layout there are data for which it is wrong, whatever the settings and the number of ranks.
-/

noncomputable section

namespace FftMpi

open Finset

/-- Memory in which everything is accessible; array `n` has the value `v n` everywhere. -/
def flatMem (v : Nat → ℝ) (_ : Nat) : LMem ℝ where
  ub n _ := some (v n)
  sb _ := some 0
  rb _ := some 0

theorem flatMem_bufs (P : Nat) (f : Nat → Fft3 ℝ) (v : Nat → ℝ) (n : Nat) : Bufs P f n (flatMem v) :=
  ⟨fun _ _ _ _ _ => rfl, fun _ _ _ _ _ => rfl, fun _ _ _ _ _ => rfl⟩

theorem flatMem_holds (P : Nat) (p : Int) (bs : Nat → Box3) (v : Nat → ℝ) (n : Nat) :
    Holds P p bs n (fun _ _ _ => ⟨v n, v n⟩) (flatMem v) := fun _ _ _ _ _ _ => ⟨rfl, rfl⟩

/-- Half of every array is 0, the other half 1: the sum of the values is not 0. -/
theorem half_sum {P : Nat} {bs : Nat → Box3} {n1 n2 n3 : Int} (T : Tiles3 P bs n1 n2 n3) (h1 : 0 < n1) (h2 : 0 < n2) (h3 : 0 < n3)
    {p : Int} {n : Nat} {m : Nat → LMem ℝ} {Y : Grid3}
    (hm : ∀ r < P, ∀ x, (m r).ub n x = some (if 0 ≤ x ∧ x < (bs r).count then 0 else 1)) (hY : Holds P p bs n Y m) (back : Bool) :
    0 < (dft3 n1.toNat n2.toNat n3.toNat back Y 0 0 0).im := by
  have hnn : ∀ i j k : Int, (0 ≤ i ∧ i < n1) → (0 ≤ j ∧ j < n2) → (0 ≤ k ∧ k < n3) → 0 ≤ (Y i j k).im := by
    intro i j k hi hj hk
    obtain ⟨r, hr, hh⟩ := T.owner i j k hi hj hk
    have := (hY r hr i j k hh).2
    rw [hm r hr] at this
    rw [← Option.some.inj this]
    split <;> norm_num
  obtain ⟨r, hr, hh⟩ := T.owner 0 0 0 ⟨le_rfl, h1⟩ ⟨le_rfl, h2⟩ ⟨le_rfl, h3⟩
  have hc := Box3.count_of_has hh
  have s1 : 0 < (bs r).isize := by have := hh.1; unfold Box3.isize; omega
  have s2 : 0 < (bs r).jsize := by have := hh.2.1; unfold Box3.jsize; omega
  have s3 : 0 < (bs r).ksize := by have := hh.2.2; unfold Box3.ksize; omega
  have hv : 0 < (bs r).vol := by unfold Box3.vol; positivity
  obtain ⟨i, j, k, q, hp, hq, he⟩ := addr3_surj (permute := p) (nqty := 2) (a := 2 * (bs r).vol - 1) s1 s2 s3 (by decide) (by omega)
  have hone : (Y i j k).im = 1 := by
    have := (hY r hr i j k hp).2
    rw [hm r hr] at this
    rw [← Option.some.inj this]
    rw [if_neg]
    have hle : addr3 p (bs r) 2 i j k q ≤ addr3 p (bs r) 2 i j k 1 := by
      unfold addr3
      split_ifs <;> omega
    omega
  obtain ⟨hi, hj, hk⟩ := T.inside r hr i j k hp
  obtain ⟨i, rfl⟩ := Int.eq_ofNat_of_zero_le hi.1
  obtain ⟨j, rfl⟩ := Int.eq_ofNat_of_zero_le hj.1
  obtain ⟨k, rfl⟩ := Int.eq_ofNat_of_zero_le hk.1
  rw [dft3_eq]
  simp only [kern_zero, mul_one, Complex.im_sum]
  have g3 : ∀ a ∈ range n1.toNat, ∀ b ∈ range n2.toNat, ∀ c ∈ range n3.toNat, 0 ≤ (Y a b c).im := by
    intro a ha b hb c hc
    rw [mem_range] at ha hb hc
    exact hnn _ _ _ (by omega) (by omega) (by omega)
  have mi : i ∈ range n1.toNat := by rw [mem_range]; omega
  have mj : j ∈ range n2.toNat := by rw [mem_range]; omega
  have mk : k ∈ range n3.toNat := by rw [mem_range]; omega
  refine sum_pos' (fun a ha => sum_nonneg fun b hb => sum_nonneg fun c hc => g3 a ha b hb c hc) ⟨i, mi, ?_⟩
  refine sum_pos' (fun b hb => sum_nonneg fun c hc => g3 i mi b hb c hc) ⟨j, mj, ?_⟩
  refine sum_pos' (fun c hc => g3 i mi j mj c hc) ⟨k, mk, ?_⟩
  have : (Y (i : Int) (j : Int) (k : Int)).im = 1 := hone
  rw [this]
  norm_num

theorem dft3_zero (n1 n2 n3 : Nat) (back : Bool) (i j k : Int) : dft3 n1 n2 n3 back (fun _ _ _ => ⟨0, 0⟩) i j k = 0 := by
  rw [dft3_eq]
  refine sum_eq_zero fun a _ => sum_eq_zero fun b _ => sum_eq_zero fun c _ => ?_
  exact zero_mul _

/-- The forward path without a first remap: separate arrays give a wrong result for some data. -/
theorem Ready.fwd_apart_bad {c : Create} {f : Nat → Fft3 ℝ} (R : Ready c f) (e : Bool) (J : Nat → Nat → Junk) (scaled : Bool)
    {flag : Int} (hflag : flag = 1 ∨ (scaled = false ∧ inoutSame c.P c.a = true)) (hpre : preflag c.P c.a = false) {ai ao : Nat}
    (hio : ai ≠ ao) :
    ∃ m', Step e c.P (fsz f) ao (fun r => (f r).compute (J r) scaled false flag ai ao)
        (flatMem fun n => if n = ai then 0 else 1) m' ∧
      ¬ Holds c.P c.a.permute c.a.outs ao (c.a.dft (decide (flag ≠ 1)) fun _ _ _ => ⟨0, 0⟩) m' := by
  obtain ⟨m1, s1, h1⟩ := Ready.copy_any (c := c) (f := f) (m := flatMem fun n => if n = ai then 0 else 1) e
    (fun r => (f r).insize) (ai := ai) (ao := ao)
    (fun r hr => (R.insize_range hr).1) (fun r hr => (R.insize_range hr).2) (flatMem_bufs c.P f _ _).data
    (flatMem_bufs c.P f _ _).data
  have hfast : ∀ r, c.fast r = c.a.ins r := fun r => by simp [Create.fast, fastBox, hpre]
  have hm : ∀ r < c.P, ∀ x, (m1 r).ub ao x = some (if 0 ≤ x ∧ x < (c.fast r).count then 0 else 1) := by
    intro r hr x
    rw [h1 r hr, R.insize r hr, hfast, boxSize_eq_count (R.args.properIn r hr).1]
    simp only [flatMem, if_true, if_neg hio.symm]
    split <;> rfl
  have b1 : Bufs c.P f ao m1 := (flatMem_bufs c.P f _ _).congr s1.dom
  obtain ⟨Y, hY⟩ := Ready.some_holds (c := c) (f := f) R.fast_tiles 0 (fun r hr => R.size_fast hr) b1.data
  have pos := half_sum R.fast_tiles (by have := R.args.fast; omega) (by have := R.args.mid; omega) (by have := R.args.slow; omega)
    hm hY (decide (flag ≠ 1))
  obtain ⟨m2, s2, h2⟩ := R.fwd_rest e J flag hY b1
  refine ⟨m2, ((s1.append s2).congr ?_), fun h => ?_⟩
  · intro r hr
    have : preflag (c.on r).P (c.on r).a = false := hpre
    have h3 : ¬ (flag = -1 ∧ scaled = true ∧ ¬ false = true) := by
      rintro ⟨h1, h2, _⟩
      rcases hflag with h | h
      · omega
      · rw [h.1] at h2; cases h2
    unfold Fft3.compute
    rw [if_pos (by rw [R.same r hr]; exact hflag.imp_right And.right), R.prefast r hr, if_neg h3]
    simp [Create.prefastO, this, remapOrCopy, hio]
  · obtain ⟨r, hr, hh⟩ := R.outs_tiles.owner 0 0 0 ⟨le_rfl, by have := R.args.fast; omega⟩
      ⟨le_rfl, by have := R.args.mid; omega⟩ ⟨le_rfl, by have := R.args.slow; omega⟩
    have := (h2 r hr).agree (h r hr) hh
    unfold Ready.spec at this
    rw [this, Args3.dft, dft3_zero] at pos
    exact lt_irrefl _ pos

/-- The same with `remaponly`. -/
theorem Ready.fwd_apart_bad_only {c : Create} {f : Nat → Fft3 ℝ} (R : Ready c f) (e : Bool) (J : Nat → Nat → Junk) (scaled : Bool)
    {flag : Int} (hflag : flag = 1 ∨ inoutSame c.P c.a = true) (hpre : preflag c.P c.a = false) {ai ao : Nat}
    (hio : ai ≠ ao) :
    ∃ m', Step e c.P (fsz f) ao (fun r => (f r).compute (J r) scaled true flag ai ao)
        (flatMem fun n => if n = ai then 0 else 1) m' ∧
      ¬ Holds c.P c.a.permute c.a.outs ao (fun _ _ _ => ⟨0, 0⟩) m' := by
  obtain ⟨m1, s1, h1⟩ := Ready.copy_any (c := c) (f := f) (m := flatMem fun n => if n = ai then 0 else 1) e
    (fun r => (f r).insize) (ai := ai) (ao := ao)
    (fun r hr => (R.insize_range hr).1) (fun r hr => (R.insize_range hr).2) (flatMem_bufs c.P f _ _).data
    (flatMem_bufs c.P f _ _).data
  have hfast : ∀ r, c.fast r = c.a.ins r := fun r => by simp [Create.fast, fastBox, hpre]
  have hm : ∀ r < c.P, ∀ x, (m1 r).ub ao x = some (if 0 ≤ x ∧ x < (c.fast r).count then 0 else 1) := by
    intro r hr x
    rw [h1 r hr, R.insize r hr, hfast, boxSize_eq_count (R.args.properIn r hr).1]
    simp only [flatMem, if_true, if_neg hio.symm]
    split <;> rfl
  have b1 : Bufs c.P f ao m1 := (flatMem_bufs c.P f _ _).congr s1.dom
  obtain ⟨Y, hY⟩ := Ready.some_holds (c := c) (f := f) R.fast_tiles 0 (fun r hr => R.size_fast hr) b1.data
  have pos := half_sum R.fast_tiles (by have := R.args.fast; omega) (by have := R.args.mid; omega) (by have := R.args.slow; omega)
    hm hY false
  obtain ⟨m2, s2, h2⟩ := R.fwd_rest_only e hY b1
  refine ⟨m2, ((s1.append s2).congr ?_), fun h => ?_⟩
  · intro r hr
    have : preflag (c.on r).P (c.on r).a = false := hpre
    unfold Fft3.compute
    rw [if_pos (by rw [R.same r hr]; exact hflag), R.prefast r hr]
    simp [Create.prefastO, this, remapOrCopy, hio]
  · rw [dft3_eq] at pos
    have : ∀ i ∈ range c.a.nfast.toNat, ∀ j ∈ range c.a.nmid.toNat, ∀ k ∈ range c.a.nslow.toNat, Y i j k = ⟨0, 0⟩ := by
      intro i hi j hj k hk
      rw [mem_range] at hi hj hk
      obtain ⟨r, hr, hh⟩ := R.outs_tiles.owner i j k (by omega) (by omega) (by omega)
      exact (h2 r hr).agree (h r hr) hh
    rw [sum_eq_zero fun i hi => sum_eq_zero fun j hj => sum_eq_zero fun k hk => by rw [this i hi j hj k hk]; exact zero_mul _] at pos
    exact lt_irrefl _ pos

/-- **C26, forward, exactly.**  Forward transforms with separate arrays are right for all data if and only if some rank does not
own whole rows of the input; the same with `remaponly`. -/
theorem C26_forward_iff {P : Nat} {a : Args3} {st : Settings} {f : Nat → Fft3 ℝ} (S : SetUp3 P a st f) (e : Bool)
    (J : Nat → Nat → Junk) (scaled remaponly : Bool) {ai ao : Nat} (hio : ai ≠ ao) :
    (∀ X m, Holds P 0 a.ins ai X m → Bufs P f ao m →
      ∃ m', Terminates e P (fun r => (f r).compute (J r) scaled remaponly 1 ai ao) m m' ∧
        Holds P a.permute a.outs ao (if remaponly then X else a.dft false X) m') ↔ SplitRows P a := by
  obtain ⟨c, rfl, rfl, rfl, _, R⟩ := S.ready
  constructor
  · intro H
    by_contra hs
    have hpre : preflag c.P c.a = false := by
      rw [← Bool.not_eq_true]
      exact fun h => hs (preflag_iff.mp h)
    have h0 := flatMem_holds c.P 0 c.a.ins (fun n => if n = ai then 0 else 1) ai
    simp only [if_true] at h0
    obtain ⟨m2, t2, h2⟩ := H _ _ h0 (flatMem_bufs _ _ _ _)
    cases remaponly with
    | false =>
      obtain ⟨m', t, hn⟩ := R.fwd_apart_bad e J scaled (flag := 1) (.inl rfl) hpre hio
      refine hn fun r hr => ?_
      rw [t2.agree t.ok.terminates r hr]
      exact h2 r hr
    | true =>
      obtain ⟨m', t, hn⟩ := R.fwd_apart_bad_only e J scaled (flag := 1) (.inl rfl) hpre hio
      refine hn fun r hr => ?_
      rw [t2.agree t.ok.terminates r hr]
      exact h2 r hr
  · intro hs X m hX hb
    obtain ⟨m', s, h⟩ := R.compute_fwd e J scaled remaponly (flag := 1) (.inl rfl) (ai := ai) (ao := ao)
      (.inr (preflag_iff.mpr hs)) hX hb
    exact ⟨m', s.ok.terminates, by cases remaponly <;> simpa [Ready.effect, Ready.spec, Args3.dft] using h⟩

/-- The first remap of an inverse transform is left out only if every rank owns whole columns, stored as such. -/
theorem postflag_of_not_split {P : Nat} {a : Args3} {g : Grids} (h : ¬ SplitCols P a) :
    slowflag P a = false ∧ postflag P a g = false := by
  unfold SplitCols at h
  push Not at h
  obtain ⟨hp, hk⟩ := h
  have hs : slowflag P a = false := by
    unfold slowflag
    rw [allMax_false]
    intro r hr
    simp [hp, hk r hr]
  refine ⟨hs, ?_⟩
  unfold postflag
  rw [allMax_false]
  intro r hr
  simp [slowBox, hs, hp]

/-- The inverse path with a last remap, which reads `in`: wrong for constant data. -/
theorem Ready.inv_apart_bad {c : Create} {f : Nat → Fft3 ℝ} (R : Ready c f) (e : Bool) (J : Nat → Nat → Junk)
    (hs : inoutSame c.P c.a = false) (hx : Ready.ExtraFits c f) (hpre : preflag c.P c.a = true) (ai ao : Nat) (hio : ai ≠ ao) :
    ∃ m', Step e c.P (fsz f) ao (fun r => (f r).compute (J r) false false (-1) ai ao) (flatMem fun _ => 1) m' ∧
      ¬ Holds c.P 0 c.a.ins ao (c.a.dft true fun _ _ _ => ⟨1, 1⟩) m' := by
  have hb : ∀ n, Bufs c.P f n (flatMem fun _ => 1) := fun n => flatMem_bufs _ _ _ _
  obtain ⟨m1, s1⟩ := R.preslow_any e hs (hb ai) (hb ao)
  have b1 := (hb ao).congr s1.dom
  obtain ⟨X1, h1⟩ := Ready.some_holds (c := c) (f := f) R.slow_tiles 2 (fun r hr => R.size_slow hr) b1.data
  obtain ⟨m2, s2, _⟩ := R.inv_rest e hs hx J (-1) h1 b1
  have s12 := s1.append s2
  have hF : Holds c.P 0 c.fast ai (fun _ _ _ => ⟨1, 1⟩) m2 := by
    intro r hr
    rw [s12.other r hr ai hio]
    exact flatMem_holds c.P 0 c.fast (fun _ => 1) ai r hr
  obtain ⟨m3, s3, h3⟩ := R.postfast_step e hs (Or.inr hpre) hF ((hb ao).congr s12.dom)
  refine ⟨m3, ((s12.append s3).congr ?_), fun h => ?_⟩
  · intro r hr
    unfold Fft3.compute
    rw [if_neg (by rw [R.same r hr, hs]; decide)]
    simp
  · have d1 := R.args.fast; have d2 := R.args.mid; have d3 := R.args.slow
    obtain ⟨r, hr, hh⟩ := R.ins_tiles.owner 0 0 0 ⟨le_rfl, by omega⟩ ⟨le_rfl, by omega⟩ ⟨le_rfl, by omega⟩
    have := congrArg Complex.im ((h r hr).agree (h3 r hr) hh)
    rw [Args3.dft, dft3_eq] at this
    simp only [kern_zero, mul_one, sum_const, card_range, nsmul_eq_mul] at this
    obtain ⟨x, hx⟩ := Int.eq_ofNat_of_zero_le (show 0 ≤ c.a.nfast by omega)
    obtain ⟨y, hy⟩ := Int.eq_ofNat_of_zero_le (show 0 ≤ c.a.nmid by omega)
    obtain ⟨z, hz⟩ := Int.eq_ofNat_of_zero_le (show 0 ≤ c.a.nslow by omega)
    rw [hx, hy, hz] at this
    simp only [Int.toNat_natCast, Complex.mul_im, Complex.natCast_re, Complex.natCast_im, zero_mul, add_zero, mul_one] at this
    have this : x * (y * z) = 1 := by exact_mod_cast this
    have := Nat.eq_one_of_mul_eq_one_right this
    omega

/-- The inverse path without remaps at either end: separate arrays give a wrong result for some data. -/
theorem Ready.inv_copy_bad {c : Create} {f : Nat → Fft3 ℝ} (R : Ready c f) (e : Bool) (J : Nat → Nat → Junk)
    (hs : inoutSame c.P c.a = false) (hx : Ready.ExtraFits c f) (hpre : preflag c.P c.a = false) (hcol : ¬ SplitCols c.P c.a)
    {ai ao : Nat} (hio : ai ≠ ao) :
    ∃ m', Step e c.P (fsz f) ao (fun r => (f r).compute (J r) false false (-1) ai ao) (flatMem fun n => if n = ai then 0 else 1) m' ∧
      ¬ Holds c.P 0 c.a.ins ao (c.a.dft true fun _ _ _ => ⟨0, 0⟩) m' := by
  obtain ⟨hslow, hpost⟩ := postflag_of_not_split (g := c.g) hcol
  obtain ⟨m1, s1, h1⟩ := Ready.copy_any (c := c) (f := f) (m := flatMem fun n => if n = ai then 0 else 1) e
    (fun r => (f r).outsize) (ai := ai) (ao := ao)
    (fun r hr => (R.outsize_range hr).1) (fun r hr => (R.outsize_range hr).2) (flatMem_bufs c.P f _ _).data
    (flatMem_bufs c.P f _ _).data
  have hslow : ∀ r, c.slow r = c.a.outs r := fun r => by simp [Create.slow, slowBox, hslow]
  have hfast : ∀ r, c.fast r = c.a.ins r := fun r => by simp [Create.fast, fastBox, hpre]
  have hm : ∀ r < c.P, ∀ x, (m1 r).ub ao x = some (if 0 ≤ x ∧ x < (c.slow r).count then 0 else 1) := by
    intro r hr x
    rw [h1 r hr, R.outsize r hr, hslow, boxSize_eq_count (R.args.properOut r hr)]
    simp only [flatMem, if_true, if_neg hio.symm]
    split <;> rfl
  have b1 : Bufs c.P f ao m1 := (flatMem_bufs c.P f _ _).congr s1.dom
  obtain ⟨Y, hY⟩ := Ready.some_holds (c := c) (f := f) R.slow_tiles 2 (fun r hr => R.size_slow hr) b1.data
  have pos := half_sum R.slow_tiles (by have := R.args.fast; omega) (by have := R.args.mid; omega) (by have := R.args.slow; omega)
    hm hY true
  obtain ⟨m2, s2, h2⟩ := R.inv_rest e hs hx J (-1) hY b1
  refine ⟨m2, ((s1.append s2).congr ?_), fun h => ?_⟩
  · intro r hr
    have p1 : preflag (c.on r).P (c.on r).a = false := hpre
    have p2 : postflag (c.on r).P (c.on r).a (c.on r).g = false := hpost
    unfold Fft3.compute
    rw [if_neg (by rw [R.same r hr, hs]; decide), R.preslow r hr, R.postfast r hr, hs]
    simp [Create.preslowO, Create.postfastO, p1, p2, remapOrCopy, remapIf, hio]
  · obtain ⟨r, hr, hh⟩ := R.ins_tiles.owner 0 0 0 ⟨le_rfl, by have := R.args.fast; omega⟩
      ⟨le_rfl, by have := R.args.mid; omega⟩ ⟨le_rfl, by have := R.args.slow; omega⟩
    have h2 := h2 r hr
    rw [hfast] at h2
    have := h2.agree (h r hr) hh
    unfold Ready.spec at this
    rw [show decide ((-1 : Int) ≠ 1) = true by decide] at this
    rw [this, Args3.dft, dft3_zero] at pos
    exact lt_irrefl _ pos

/-- What a backward transform leaves: with `scaled` only the first numbers, as many as there are points on output, are scaled (C27). -/
def Left3 (P : Nat) (a : Args3) (scaled : Bool) (n : Nat) (X : Grid3) (m : Nat → LMem ℝ) : Prop :=
  if scaled then HoldsScaled P 0 a.ins n X (1 / a.N) (fun r => boxSize (a.outs r)) m else Holds P 0 a.ins n X m

theorem Left3.congr {P : Nat} {a : Args3} {scaled : Bool} {n : Nat} {X : Grid3} {m m' : Nat → LMem ℝ}
    (h : ∀ r < P, m' r = m r) (hl : Left3 P a scaled n X m) : Left3 P a scaled n X m' := by
  cases scaled <;> exact fun r hr => by rw [h r hr]; exact hl r hr

/-- Scaling does not make a wrong result right. -/
theorem Ready.scaled_bad {c : Create} {f : Nat → Fft3 ℝ} (R : Ready c f) {e : Bool} {J : Nat → Nat → Junk} (scaled : Bool)
    {ai ao : Nat} {m m' : Nat → LMem ℝ} {Z : Grid3}
    (s : Step e c.P (fsz f) ao (fun r => (f r).compute (J r) false false (-1) ai ao) m m') (hb : Bufs c.P f ao m)
    (hn : ¬ Holds c.P 0 c.a.ins ao Z m') :
    ∃ m'', Terminates e c.P (fun r => (f r).compute (J r) scaled false (-1) ai ao) m m'' ∧ ¬ Left3 c.P c.a scaled ao Z m'' := by
  cases scaled with
  | false => exact ⟨m', s.ok.terminates, by simpa [Left3] using hn⟩
  | true =>
    have b1 := hb.congr s.dom
    obtain ⟨Y, hY⟩ := Ready.some_holds (c := c) (f := f) R.ins_tiles 0 (fun r hr => R.size_ins hr) b1.data
    obtain ⟨m2, s2, h2⟩ := R.scale_part e true false (-1) hY b1
    rw [if_pos (by simp)] at h2
    refine ⟨m2, ((s.append s2).congr fun r _ => ?_).ok.terminates, fun h => hn fun r hr i j k hh => ?_⟩
    · simp [Fft3.compute]
    · rw [Left3, if_pos rfl] at h
      have := (h2 r hr).agree (h r hr) hh
      have hN : ((1 / Ready.N c : ℝ) : ℂ) ≠ 0 := by
        have := R.args.fast; have := R.args.mid; have := R.args.slow
        have hp : 0 < c.a.nfast * c.a.nmid * c.a.nslow := Int.mul_pos (Int.mul_pos (by omega) (by omega)) (by omega)
        have : Ready.N c ≠ 0 := by
          unfold Ready.N
          exact_mod_cast hp.ne'
        simpa using this
      have e : Y i j k = Z i j k := by
        simp only at this
        split at this
        · exact mul_left_cancel₀ hN this
        · exact this
      have := hY r hr i j k hh
      rwa [e] at this

/-- **C26, backward, exactly.**  Backward transforms with separate arrays (with the room of C25) have the result of those in
place, scaled or not, for all data if and only if: the layouts are the same and some rank does not own whole rows; or they are
different, every rank owns whole rows of the input, and the output is not whole columns on every rank, stored as such. -/
theorem C26_backward_iff {P : Nat} {a : Args3} {st : Settings} {f : Nat → Fft3 ℝ} (S : SetUp3 P a st f) (e : Bool)
    (J : Nat → Nat → Junk) (scaled : Bool) {ai ao : Nat} (hio : ai ≠ ao) :
    (∀ X m, Holds P a.permute a.outs ai X m → Bufs P f ao m → RoomBack P a st m →
      ∃ m', Terminates e P (fun r => (f r).compute (J r) scaled false (-1) ai ao) m m' ∧
        Left3 P a scaled ao (a.dft true X) m') ↔
    ((SameLayout P a ∧ SplitRows P a) ∨ (¬ SameLayout P a ∧ ¬ SplitRows P a ∧ SplitCols P a)) := by
  have S0 := S
  obtain ⟨c, rfl, rfl, rfl, _, R⟩ := S.ready
  constructor
  · intro H
    have room : ∀ v, RoomBack c.P c.a c.st (flatMem v) := fun v =>
      S0.room fun _ _ => ⟨fun _ _ _ => rfl, fun _ _ _ => rfl⟩
    have use : ∀ (v : Nat → ℝ) m', Terminates e c.P (fun r => (f r).compute (J r) scaled false (-1) ai ao) (flatMem v) m' →
        Left3 c.P c.a scaled ao (c.a.dft true fun _ _ _ => ⟨v ai, v ai⟩) m' := by
      intro v m' t
      obtain ⟨m2, t2, h2⟩ := H _ _ (flatMem_holds _ _ _ v ai) (flatMem_bufs _ _ _ _) (room v)
      refine Left3.congr (fun r hr => t2.agree t r hr) h2
    by_contra hc
    rw [not_or] at hc
    by_cases hl : SameLayout c.P c.a
    · have hrow : preflag c.P c.a = false := by
        rw [← Bool.not_eq_true]
        exact fun h => hc.1 ⟨hl, preflag_iff.mp h⟩
      obtain ⟨m', t, hn⟩ := R.fwd_apart_bad e J false (flag := -1) (.inr ⟨rfl, inoutSame_of hl.1 hl.2⟩) hrow hio
      have hn' : ¬ Holds c.P 0 c.a.ins ao (c.a.dft true fun _ _ _ => ⟨0, 0⟩) m' := fun h => hn fun r hr => by
        rw [hl.1, ← hl.2 r hr]
        simpa using h r hr
      obtain ⟨m2, t2, hn2⟩ := R.scaled_bad scaled t (flatMem_bufs _ _ _ _) hn'
      have := use _ _ t2
      rw [if_pos rfl] at this
      exact hn2 this
    · have hs : inoutSame c.P c.a = false := by
        rw [← Bool.not_eq_true]
        exact fun h => hl (R.same_layout h)
      by_cases hrow : SplitRows c.P c.a
      · obtain ⟨s, t, hx, _⟩ := R.roomFits (room fun _ => 1) hs
        have R' := R.atLeast s t
        obtain ⟨m', t, hn⟩ := R'.inv_apart_bad e J hs hx (preflag_iff.mpr hrow) ai ao hio
        obtain ⟨m2, t2, hn2⟩ := R'.scaled_bad scaled t (flatMem_bufs _ _ _ _) hn
        have t' : Terminates e c.P (fun r => (f r).compute (J r) scaled false (-1) ai ao) (flatMem fun _ => 1) m2 := t2
        exact hn2 (use (fun _ => 1) m2 t')
      · have hpre : preflag c.P c.a = false := by
          rw [← Bool.not_eq_true]
          exact fun h => hrow (preflag_iff.mp h)
        obtain ⟨s, t, hx, _⟩ := R.roomFits (room fun _ => 1) hs
        have R' := R.atLeast s t
        obtain ⟨m', t, hn⟩ := R'.inv_copy_bad e J hs hx hpre (fun h => hc.2 ⟨hl, hrow, h⟩) hio
        obtain ⟨m2, t2, hn2⟩ := R'.scaled_bad scaled t (flatMem_bufs _ _ _ _) hn
        have t' : Terminates e c.P (fun r => (f r).compute (J r) scaled false (-1) ai ao)
          (flatMem fun n => if n = ai then 0 else 1) m2 := t2
        have := use (fun n => if n = ai then 0 else 1) m2 t'
        rw [if_pos rfl] at this
        exact hn2 this
  · intro hc X m hX hb hr
    obtain ⟨m', s, h⟩ := R.back_apart e J scaled false hc hX hb hr
    exact ⟨m', s.ok.terminates, by cases scaled <;> simpa [Left3, Ready.effect, Ready.spec] using h⟩

/-! ## 2d -/

theorem flatMem_bufs2 (P : Nat) (f : Nat → Fft2 ℝ) (v : Nat → ℝ) (n : Nat) : Bufs2 P f n (flatMem v) :=
  ⟨fun _ _ _ _ _ => rfl, fun _ _ _ _ _ => rfl, fun _ _ _ _ _ => rfl⟩

theorem flatMem_holds2 (P : Nat) (p : Int) (bs : Nat → Box2) (v : Nat → ℝ) (n : Nat) :
    Holds2 P p bs n (fun _ _ => ⟨v n, v n⟩) (flatMem v) := fun _ _ _ _ _ => ⟨rfl, rfl⟩

theorem half_sum2 {P : Nat} {bs : Nat → Box2} {n1 n2 : Int} (T : Tiles2 P bs n1 n2) (h1 : 0 < n1) (h2 : 0 < n2)
    {p : Int} (hp : p = 0 ∨ p = 1) {n : Nat} {m : Nat → LMem ℝ} {Y : Grid2}
    (hm : ∀ r < P, ∀ x, (m r).ub n x = some (if 0 ≤ x ∧ x < (bs r).count then 0 else 1)) (hY : Holds2 P p bs n Y m) (back : Bool) :
    0 < (dft2 n1.toNat n2.toNat back Y 0 0).im := by
  have := half_sum (p := p) (Y := liftGrid Y) T.lift h1 h2 (by decide) (m := m) (n := n) (fun r hr x => by
    rw [Box2.lift_count]; exact hm r hr x) (fun r hr => (holdsBox2_lift hp).mp (hY r hr)) back
  rw [show Int.toNat 1 = 1 from rfl, dft3_lift] at this
  exact this

theorem dft2_zero (n1 n2 : Nat) (back : Bool) (i j : Int) : dft2 n1 n2 back (fun _ _ => ⟨0, 0⟩) i j = 0 := by
  rw [dft2_eq]
  exact sum_eq_zero fun a _ => sum_eq_zero fun b _ => zero_mul _

theorem Ready2.fwd_apart_bad {c : Create2} {f : Nat → Fft2 ℝ} (R : Ready2 c f) (e : Bool) (J : Nat → Nat → Junk) (scaled : Bool)
    {flag : Int} (hflag : flag = 1 ∨ (scaled = false ∧ inoutSame2 c.P c.a = true)) (hpre : preflag2 c.P c.a = false) {ai ao : Nat}
    (hio : ai ≠ ao) :
    ∃ m', Step e c.P (fsz2 f) ao (fun r => (f r).compute (J r) scaled false flag ai ao)
        (flatMem fun n => if n = ai then 0 else 1) m' ∧
      ¬ Holds2 c.P c.a.permute c.a.outs ao (c.a.dft (decide (flag ≠ 1)) fun _ _ => ⟨0, 0⟩) m' := by
  obtain ⟨m1, s1, h1⟩ := Ready2.copy_any (c := c) (f := f) (m := flatMem fun n => if n = ai then 0 else 1) e
    (fun r => (f r).insize) (ai := ai) (ao := ao)
    (fun r hr => (R.insize_range hr).1) (fun r hr => (R.insize_range hr).2) (flatMem_bufs2 c.P f _ _).data
    (flatMem_bufs2 c.P f _ _).data
  have hfast : ∀ r, c.fast r = c.a.ins r := fun r => by simp [Create2.fast, fastBox2, hpre]
  have hm : ∀ r < c.P, ∀ x, (m1 r).ub ao x = some (if 0 ≤ x ∧ x < (c.fast r).count then 0 else 1) := by
    intro r hr x
    rw [h1 r hr, R.insize r hr, hfast, boxSize2_eq_count (R.args.properIn r hr).1]
    simp only [flatMem, if_true, if_neg hio.symm]
    split <;> rfl
  have b1 : Bufs2 c.P f ao m1 := (flatMem_bufs2 c.P f _ _).congr s1.dom
  obtain ⟨Y, hY⟩ := Ready2.some_holds (c := c) (f := f) R.fast_tiles (p := 0) (.inl rfl) (fun r hr => R.size_fast hr) b1.data
  have pos := half_sum2 R.fast_tiles (by have := R.args.fast; omega) (by have := R.args.slow; omega) (.inl rfl)
    hm hY (decide (flag ≠ 1))
  obtain ⟨m2, s2, h2⟩ := R.fwd_rest e J flag hY b1
  refine ⟨m2, ((s1.append s2).congr ?_), fun h => ?_⟩
  · intro r hr
    have : preflag2 (c.on r).P (c.on r).a = false := hpre
    have h3 : ¬ (flag = -1 ∧ scaled = true ∧ ¬ false = true) := by
      rintro ⟨h1, h2, _⟩
      rcases hflag with h | h
      · omega
      · rw [h.1] at h2; cases h2
    unfold Fft2.compute
    rw [if_pos (by rw [R.same r hr]; exact hflag.imp_right And.right), R.prefast r hr, if_neg h3]
    simp [Create2.prefastO, this, remapOrCopy2, hio]
  · obtain ⟨r, hr, hh⟩ := R.outs_tiles.owner 0 0 ⟨le_rfl, by have := R.args.fast; omega⟩
      ⟨le_rfl, by have := R.args.slow; omega⟩
    have := (h2 r hr).agree (h r hr) hh
    unfold Ready2.spec at this
    rw [this, Args2.dft, dft2_zero] at pos
    exact lt_irrefl _ pos

/-- The same with `remaponly`. -/
theorem Ready2.fwd_apart_bad_only {c : Create2} {f : Nat → Fft2 ℝ} (R : Ready2 c f) (e : Bool) (J : Nat → Nat → Junk) (scaled : Bool)
    {flag : Int} (hflag : flag = 1 ∨ inoutSame2 c.P c.a = true) (hpre : preflag2 c.P c.a = false) {ai ao : Nat}
    (hio : ai ≠ ao) :
    ∃ m', Step e c.P (fsz2 f) ao (fun r => (f r).compute (J r) scaled true flag ai ao)
        (flatMem fun n => if n = ai then 0 else 1) m' ∧
      ¬ Holds2 c.P c.a.permute c.a.outs ao (fun _ _ => ⟨0, 0⟩) m' := by
  obtain ⟨m1, s1, h1⟩ := Ready2.copy_any (c := c) (f := f) (m := flatMem fun n => if n = ai then 0 else 1) e
    (fun r => (f r).insize) (ai := ai) (ao := ao)
    (fun r hr => (R.insize_range hr).1) (fun r hr => (R.insize_range hr).2) (flatMem_bufs2 c.P f _ _).data
    (flatMem_bufs2 c.P f _ _).data
  have hfast : ∀ r, c.fast r = c.a.ins r := fun r => by simp [Create2.fast, fastBox2, hpre]
  have hm : ∀ r < c.P, ∀ x, (m1 r).ub ao x = some (if 0 ≤ x ∧ x < (c.fast r).count then 0 else 1) := by
    intro r hr x
    rw [h1 r hr, R.insize r hr, hfast, boxSize2_eq_count (R.args.properIn r hr).1]
    simp only [flatMem, if_true, if_neg hio.symm]
    split <;> rfl
  have b1 : Bufs2 c.P f ao m1 := (flatMem_bufs2 c.P f _ _).congr s1.dom
  obtain ⟨Y, hY⟩ := Ready2.some_holds (c := c) (f := f) R.fast_tiles (p := 0) (.inl rfl) (fun r hr => R.size_fast hr) b1.data
  have pos := half_sum2 R.fast_tiles (by have := R.args.fast; omega) (by have := R.args.slow; omega) (.inl rfl)
    hm hY false
  obtain ⟨m2, s2, h2⟩ := R.fwd_rest_only e hY b1
  refine ⟨m2, ((s1.append s2).congr ?_), fun h => ?_⟩
  · intro r hr
    have : preflag2 (c.on r).P (c.on r).a = false := hpre
    unfold Fft2.compute
    rw [if_pos (by rw [R.same r hr]; exact hflag), R.prefast r hr]
    simp [Create2.prefastO, this, remapOrCopy2, hio]
  · rw [dft2_eq] at pos
    have : ∀ i ∈ range c.a.nfast.toNat, ∀ j ∈ range c.a.nslow.toNat, Y i j = ⟨0, 0⟩ := by
      intro i hi j hj
      rw [mem_range] at hi hj
      obtain ⟨r, hr, hh⟩ := R.outs_tiles.owner i j (by omega) (by omega)
      exact (h2 r hr).agree (h r hr) hh
    rw [sum_eq_zero fun i hi => sum_eq_zero fun j hj => by rw [this i hi j hj]; exact zero_mul _] at pos
    exact lt_irrefl _ pos

/-- **C26 in 2d, forward, exactly.**  As `C26_forward_iff`. -/
theorem C26_forward_iff_2d {w : Int} {P : Nat} {a : Args2} {st : Settings} {f : Nat → Fft2 ℝ} (S : SetUp2 w P a st f) (e : Bool)
    (J : Nat → Nat → Junk) (scaled remaponly : Bool) {ai ao : Nat} (hio : ai ≠ ao) :
    (∀ X m, Holds2 P 0 a.ins ai X m → Bufs2 P f ao m →
      ∃ m', Terminates e P (fun r => (f r).compute (J r) scaled remaponly 1 ai ao) m m' ∧
        Holds2 P a.permute a.outs ao (if remaponly then X else a.dft false X) m') ↔ SplitRows2 P a := by
  obtain ⟨c, rfl, rfl, rfl, rfl, _, R⟩ := S.ready
  constructor
  · intro H
    by_contra hs
    have hpre : preflag2 c.P c.a = false := by
      rw [← Bool.not_eq_true]
      exact fun h => hs (preflag2_iff.mp h)
    have h0 := flatMem_holds2 c.P 0 c.a.ins (fun n => if n = ai then 0 else 1) ai
    simp only [if_true] at h0
    obtain ⟨m2, t2, h2⟩ := H _ _ h0 (flatMem_bufs2 _ _ _ _)
    cases remaponly with
    | false =>
      obtain ⟨m', t, hn⟩ := R.fwd_apart_bad e J scaled (flag := 1) (.inl rfl) hpre hio
      refine hn fun r hr => ?_
      rw [t2.agree t.ok.terminates r hr]
      exact h2 r hr
    | true =>
      obtain ⟨m', t, hn⟩ := R.fwd_apart_bad_only e J scaled (flag := 1) (.inl rfl) hpre hio
      refine hn fun r hr => ?_
      rw [t2.agree t.ok.terminates r hr]
      exact h2 r hr
  · intro hs X m hX hb
    obtain ⟨m', s, h⟩ := R.compute_fwd e J scaled remaponly (flag := 1) (.inl rfl) (ai := ai) (ao := ao)
      (.inr (preflag2_iff.mpr hs)) hX hb
    exact ⟨m', s.ok.terminates, by cases remaponly <;> simpa [Ready2.effect, Ready2.spec, Args2.dft] using h⟩

theorem postflag2_of_not_split {P : Nat} {a : Args2} (h : ¬ SplitCols2 P a) : slowflag2 P a = false ∧ postflag2 P a = false := by
  unfold SplitCols2 at h
  push Not at h
  obtain ⟨hp, hk⟩ := h
  have hs : slowflag2 P a = false := by
    unfold slowflag2
    rw [allMax_false]
    intro r hr
    simp [hp, hk r hr]
  refine ⟨hs, ?_⟩
  unfold postflag2
  rw [allMax_false]
  intro r hr
  simp [slowBox2, hs, hp]

theorem Ready2.inv_apart_bad {c : Create2} {f : Nat → Fft2 ℝ} (R : Ready2 c f) (e : Bool) (J : Nat → Nat → Junk)
    (hs : inoutSame2 c.P c.a = false) (hpre : preflag2 c.P c.a = true) (ai ao : Nat) (hio : ai ≠ ao) :
    ∃ m', Step e c.P (fsz2 f) ao (fun r => (f r).compute (J r) false false (-1) ai ao) (flatMem fun _ => 1) m' ∧
      ¬ Holds2 c.P 0 c.a.ins ao (c.a.dft true fun _ _ => ⟨1, 1⟩) m' := by
  have hb : ∀ n, Bufs2 c.P f n (flatMem fun _ => 1) := fun n => flatMem_bufs2 _ _ _ _
  obtain ⟨m1, s1⟩ := R.preslow_any e hs (hb ai) (hb ao)
  have b1 := (hb ao).congr s1.dom
  obtain ⟨X1, h1⟩ := Ready2.some_holds (c := c) (f := f) R.slow_tiles (p := 1) (.inr rfl) (fun r hr => R.size_slow hr) b1.data
  obtain ⟨m2, s2, _⟩ := R.inv_rest e hs J (-1) h1 b1
  have s12 := s1.append s2
  have hF : Holds2 c.P 0 c.fast ai (fun _ _ => ⟨1, 1⟩) m2 := by
    intro r hr
    rw [s12.other r hr ai hio]
    exact flatMem_holds2 c.P 0 c.fast (fun _ => 1) ai r hr
  obtain ⟨m3, s3, h3⟩ := R.postfast_step e hs (Or.inr hpre) hF ((hb ao).congr s12.dom)
  refine ⟨m3, ((s12.append s3).congr ?_), fun h => ?_⟩
  · intro r hr
    unfold Fft2.compute
    rw [if_neg (by rw [R.same r hr, hs]; decide)]
    simp
  · have d1 := R.args.fast; have d3 := R.args.slow
    obtain ⟨r, hr, hh⟩ := R.ins_tiles.owner 0 0 ⟨le_rfl, by omega⟩ ⟨le_rfl, by omega⟩
    have := congrArg Complex.im ((h r hr).agree (h3 r hr) hh)
    rw [Args2.dft, dft2_eq] at this
    simp only [kern_zero, mul_one, sum_const, card_range, nsmul_eq_mul] at this
    obtain ⟨x, hx⟩ := Int.eq_ofNat_of_zero_le (show 0 ≤ c.a.nfast by omega)
    obtain ⟨z, hz⟩ := Int.eq_ofNat_of_zero_le (show 0 ≤ c.a.nslow by omega)
    rw [hx, hz] at this
    simp only [Int.toNat_natCast, Complex.mul_im, Complex.natCast_re, Complex.natCast_im, zero_mul, add_zero, mul_one] at this
    have this : x * z = 1 := by exact_mod_cast this
    have := Nat.eq_one_of_mul_eq_one_right this
    omega

theorem Ready2.inv_copy_bad {c : Create2} {f : Nat → Fft2 ℝ} (R : Ready2 c f) (e : Bool) (J : Nat → Nat → Junk)
    (hs : inoutSame2 c.P c.a = false) (hpre : preflag2 c.P c.a = false) (hcol : ¬ SplitCols2 c.P c.a)
    {ai ao : Nat} (hio : ai ≠ ao) :
    ∃ m', Step e c.P (fsz2 f) ao (fun r => (f r).compute (J r) false false (-1) ai ao) (flatMem fun n => if n = ai then 0 else 1) m' ∧
      ¬ Holds2 c.P 0 c.a.ins ao (c.a.dft true fun _ _ => ⟨0, 0⟩) m' := by
  obtain ⟨hslow, hpost⟩ := postflag2_of_not_split hcol
  obtain ⟨m1, s1, h1⟩ := Ready2.copy_any (c := c) (f := f) (m := flatMem fun n => if n = ai then 0 else 1) e
    (fun r => (f r).outsize) (ai := ai) (ao := ao)
    (fun r hr => (R.outsize_range hr).1) (fun r hr => (R.outsize_range hr).2) (flatMem_bufs2 c.P f _ _).data
    (flatMem_bufs2 c.P f _ _).data
  have hslow : ∀ r, c.slow r = c.a.outs r := fun r => by simp [Create2.slow, slowBox2, hslow]
  have hfast : ∀ r, c.fast r = c.a.ins r := fun r => by simp [Create2.fast, fastBox2, hpre]
  have hm : ∀ r < c.P, ∀ x, (m1 r).ub ao x = some (if 0 ≤ x ∧ x < (c.slow r).count then 0 else 1) := by
    intro r hr x
    rw [h1 r hr, R.outsize r hr, hslow, boxSize2_eq_count (R.args.properOut r hr)]
    simp only [flatMem, if_true, if_neg hio.symm]
    split <;> rfl
  have b1 : Bufs2 c.P f ao m1 := (flatMem_bufs2 c.P f _ _).congr s1.dom
  obtain ⟨Y, hY⟩ := Ready2.some_holds (c := c) (f := f) R.slow_tiles (p := 1) (.inr rfl) (fun r hr => R.size_slow hr) b1.data
  have pos := half_sum2 R.slow_tiles (by have := R.args.fast; omega) (by have := R.args.slow; omega) (.inr rfl) hm hY true
  obtain ⟨m2, s2, h2⟩ := R.inv_rest e hs J (-1) hY b1
  refine ⟨m2, ((s1.append s2).congr ?_), fun h => ?_⟩
  · intro r hr
    have p1 : preflag2 (c.on r).P (c.on r).a = false := hpre
    have p2 : postflag2 (c.on r).P (c.on r).a = false := hpost
    unfold Fft2.compute
    rw [if_neg (by rw [R.same r hr, hs]; decide), R.preslow r hr, R.postfast r hr, hs]
    simp [Create2.preslowO, Create2.postfastO, p1, p2, remapOrCopy2, remapIf2, hio]
  · obtain ⟨r, hr, hh⟩ := R.ins_tiles.owner 0 0 ⟨le_rfl, by have := R.args.fast; omega⟩
      ⟨le_rfl, by have := R.args.slow; omega⟩
    have h2 := h2 r hr
    rw [hfast] at h2
    have := h2.agree (h r hr) hh
    unfold Ready2.spec at this
    rw [show decide ((-1 : Int) ≠ 1) = true by decide] at this
    rw [this, Args2.dft, dft2_zero] at pos
    exact lt_irrefl _ pos

/-- As `Left3`. -/
def Left2 (P : Nat) (a : Args2) (scaled : Bool) (n : Nat) (X : Grid2) (m : Nat → LMem ℝ) : Prop :=
  if scaled then HoldsScaled2 P 0 a.ins n X (1 / a.N) (fun r => boxSize2 (a.outs r)) m else Holds2 P 0 a.ins n X m

theorem Left2.congr {P : Nat} {a : Args2} {scaled : Bool} {n : Nat} {X : Grid2} {m m' : Nat → LMem ℝ}
    (h : ∀ r < P, m' r = m r) (hl : Left2 P a scaled n X m) : Left2 P a scaled n X m' := by
  cases scaled <;> exact fun r hr => by rw [h r hr]; exact hl r hr

/-- Scaling does not make a wrong result right. -/
theorem Ready2.scaled_bad {c : Create2} {f : Nat → Fft2 ℝ} (R : Ready2 c f) {e : Bool} {J : Nat → Nat → Junk} (scaled : Bool)
    {ai ao : Nat} {m m' : Nat → LMem ℝ} {Z : Grid2}
    (s : Step e c.P (fsz2 f) ao (fun r => (f r).compute (J r) false false (-1) ai ao) m m') (hb : Bufs2 c.P f ao m)
    (hn : ¬ Holds2 c.P 0 c.a.ins ao Z m') :
    ∃ m'', Terminates e c.P (fun r => (f r).compute (J r) scaled false (-1) ai ao) m m'' ∧ ¬ Left2 c.P c.a scaled ao Z m'' := by
  cases scaled with
  | false => exact ⟨m', s.ok.terminates, by simpa [Left2] using hn⟩
  | true =>
    have b1 := hb.congr s.dom
    obtain ⟨Y, hY⟩ := Ready2.some_holds (c := c) (f := f) R.ins_tiles (p := 0) (.inl rfl) (fun r hr => R.size_ins hr) b1.data
    obtain ⟨m2, s2, h2⟩ := R.scale_part e true false (-1) (.inl rfl) hY b1
    rw [if_pos (by simp)] at h2
    refine ⟨m2, ((s.append s2).congr fun r _ => ?_).ok.terminates, fun h => hn fun r hr i j hh => ?_⟩
    · simp [Fft2.compute]
    · rw [Left2, if_pos rfl] at h
      have := (h2 r hr).agree (h r hr) hh
      have hN : ((1 / Ready2.N c : ℝ) : ℂ) ≠ 0 := by
        have := R.args.fast; have := R.args.slow
        have hp : 0 < c.a.nfast * c.a.nslow := Int.mul_pos (by omega) (by omega)
        have : Ready2.N c ≠ 0 := by
          unfold Ready2.N
          exact_mod_cast hp.ne'
        simpa using this
      have e : Y i j = Z i j := by
        simp only at this
        split at this
        · exact mul_left_cancel₀ hN this
        · exact this
      have := hY r hr i j hh
      rwa [e] at this

/-- **C26 in 2d, backward, exactly.**  As `C26_backward_iff`. -/
theorem C26_backward_iff_2d {w : Int} {P : Nat} {a : Args2} {st : Settings} {f : Nat → Fft2 ℝ} (S : SetUp2 w P a st f) (e : Bool)
    (J : Nat → Nat → Junk) (scaled : Bool) {ai ao : Nat} (hio : ai ≠ ao) :
    (∀ X m, Holds2 P a.permute a.outs ai X m → Bufs2 P f ao m →
      ∃ m', Terminates e P (fun r => (f r).compute (J r) scaled false (-1) ai ao) m m' ∧
        Left2 P a scaled ao (a.dft true X) m') ↔
    ((SameLayout2 P a ∧ SplitRows2 P a) ∨ (¬ SameLayout2 P a ∧ ¬ SplitRows2 P a ∧ SplitCols2 P a)) := by
  obtain ⟨c, rfl, rfl, rfl, rfl, _, R⟩ := S.ready
  constructor
  · intro H
    have use : ∀ (v : Nat → ℝ) m', Terminates e c.P (fun r => (f r).compute (J r) scaled false (-1) ai ao) (flatMem v) m' →
        Left2 c.P c.a scaled ao (c.a.dft true fun _ _ => ⟨v ai, v ai⟩) m' := by
      intro v m' t
      obtain ⟨m2, t2, h2⟩ := H _ _ (flatMem_holds2 _ _ _ v ai) (flatMem_bufs2 _ _ _ _)
      refine Left2.congr (fun r hr => t2.agree t r hr) h2
    by_contra hc
    rw [not_or] at hc
    by_cases hl : SameLayout2 c.P c.a
    · have hrow : preflag2 c.P c.a = false := by
        rw [← Bool.not_eq_true]
        exact fun h => hc.1 ⟨hl, preflag2_iff.mp h⟩
      obtain ⟨m', t, hn⟩ := R.fwd_apart_bad e J false (flag := -1) (.inr ⟨rfl, inoutSame2_of hl.1 hl.2⟩) hrow hio
      have hn' : ¬ Holds2 c.P 0 c.a.ins ao (c.a.dft true fun _ _ => ⟨0, 0⟩) m' := fun h => hn fun r hr => by
        rw [hl.1, ← hl.2 r hr]
        simpa using h r hr
      obtain ⟨m2, t2, hn2⟩ := R.scaled_bad scaled t (flatMem_bufs2 _ _ _ _) hn'
      have := use _ _ t2
      rw [if_pos rfl] at this
      exact hn2 this
    · have hs : inoutSame2 c.P c.a = false := by
        rw [← Bool.not_eq_true]
        exact fun h => hl (R.same_layout h)
      by_cases hrow : SplitRows2 c.P c.a
      · obtain ⟨m', t, hn⟩ := R.inv_apart_bad e J hs (preflag2_iff.mpr hrow) ai ao hio
        obtain ⟨m2, t2, hn2⟩ := R.scaled_bad scaled t (flatMem_bufs2 _ _ _ _) hn
        exact hn2 (use (fun _ => 1) m2 t2)
      · have hpre : preflag2 c.P c.a = false := by
          rw [← Bool.not_eq_true]
          exact fun h => hrow (preflag2_iff.mp h)
        obtain ⟨m', t, hn⟩ := R.inv_copy_bad e J hs hpre (fun h => hc.2 ⟨hl, hrow, h⟩) hio
        obtain ⟨m2, t2, hn2⟩ := R.scaled_bad scaled t (flatMem_bufs2 _ _ _ _) hn
        have := use (fun n => if n = ai then 0 else 1) m2 t2
        rw [if_pos rfl] at this
        exact hn2 this
  · intro hc X m hX hb
    obtain ⟨m', s, h⟩ := R.back_apart e J scaled false hc hX hb
    exact ⟨m', s.ok.terminates, by cases scaled <;> simpa [Left2, Ready2.effect, Ready2.spec, Ready2.N, Args2.N, Args2.dft] using h⟩

/-- Examples for both sides: in `demo3` every rank owns whole rows of the input, in `crossArgs` not. -/
example : ¬ SplitRows 2 (demo3 1) ∧ SplitRows 2 crossArgs ∧ (∃ f, SetUp3 2 (demo3 1) ⟨2, 1, 2⟩ f) ∧
    ∃ f, SetUp3 2 crossArgs ⟨2, 1, 2⟩ f :=
  ⟨fun ⟨r, _, h⟩ => by simp [demo3] at h, ⟨0, by decide, by simp [crossArgs]⟩,
    setUp3_exists (demo3_valid 1 (by decide)) (by simp [Settings.Valid]), setUp3_exists crossArgs_valid (by simp [Settings.Valid])⟩

/-- Examples in 2d: in `plane2` every rank owns whole rows of the input, in `crossArgs2` not. -/
example : ¬ SplitRows2 2 (plane2 1) ∧ SplitRows2 2 crossArgs2 ∧ (∃ f, SetUp2 1 2 (plane2 1) ⟨2, 0, 2⟩ f) ∧
    ∃ f, SetUp2 1 2 crossArgs2 ⟨2, 0, 2⟩ f := by
  have hst : (⟨2, 0, 2⟩ : Settings).Valid2 1 := by simp [Settings.Valid2, FlagOk2]
  exact ⟨fun ⟨r, _, h⟩ => by simp [plane2] at h, ⟨0, by decide, by simp [crossArgs2]⟩,
    setUp2_exists (plane2_valid 1 (by decide)) hst, setUp2_exists crossArgs2_valid hst⟩

end FftMpi
