import Verif.DriverRun
import Verif.PropsDriver

/-!
# C61: the validation of the test programs
-/

noncomputable section

namespace FftMpi

open Driver

variable {rnd : ℝ → ℝ}

/-! ## Specification of the data -/

/-- The data that the documentation of the test programs promises (doc/test.txt): zero, one in the lower corner of
the grid, the sum of the indices plus one, or random numbers.  The random numbers are those of the generator of
Lehmer with multiplier 16807 modulo `2^31-1`, started on each rank with the seed plus the number of the rank. -/
def Driver.Opt3.Data (rnd : ℝ → ℝ) (o : Opt3) (me : Nat) (b : Box3) (w : Mem ℝ) : Prop :=
  match o.iflag with
  | .zero => HoldsBox 0 b (fun _ _ _ => 0) w
  | .step => HoldsBox 0 b (fun i j k =>
      if i < (o.nx / 2 : Nat) ∧ j < (o.ny / 2 : Nat) ∧ k < (o.nz / 2 : Nat) then 1 else 0) w
  | .index => HoldsBox 0 b (fun i j k => ((i + j + k + 1 : Int) : ℂ)) w
  | .random n => ∀ x : Nat, (x : Int) < 2 * b.count → w x =
      some (rnd (rnd (1 / (2 ^ 31 - 1)) * ((16807 ^ (x + 1) * (n + me) % (2 ^ 31 - 1) : Int) : ℝ)))

def Driver.Opt2.Data (rnd : ℝ → ℝ) (o : Opt2) (me : Nat) (b : Box2) (w : Mem ℝ) : Prop :=
  match o.iflag with
  | .zero => HoldsBox2 0 b (fun _ _ => 0) w
  | .step => HoldsBox2 0 b (fun i j => if i < (o.nx / 2 : Nat) ∧ j < (o.ny / 2 : Nat) then 1 else 0) w
  | .index => HoldsBox2 0 b (fun i j => ((i + j + 1 : Int) : ℂ)) w
  | .random n => ∀ x : Nat, (x : Int) < 2 * b.count → w x =
      some (rnd (rnd (1 / (2 ^ 31 - 1)) * ((16807 ^ (x + 1) * (n + me) % (2 ^ 31 - 1) : Int) : ℝ)))

/-- `eps` is the largest difference between the first `n` numbers of `w` and those of `w0`. -/
def Driver.Largest (n : Int) (w w0 : Mem ℝ) (eps : ℝ) : Prop :=
  0 ≤ eps ∧ (∀ x, 0 ≤ x → x < n → ∃ v v0, w x = some v ∧ w0 x = some v0 ∧ |v - v0| ≤ eps) ∧
    (eps = 0 ∨ ∃ x v v0, 0 ≤ x ∧ x < n ∧ w x = some v ∧ w0 x = some v0 ∧ eps = |v - v0|)

theorem seedOk3 {o : Opt3} {P : Nat} (ho : o.Accepted P) {r : Nat} (hr : r < P) : SeedOk o.iflag r := by
  intro n hn
  have := ho.seed n hn r hr
  omega

theorem seedOk2 {o : Opt2} {P : Nat} (ho : o.Accepted P) {r : Nat} (hr : r < P) : SeedOk o.iflag r := by
  intro n hn
  have := ho.seed n hn r hr
  omega

theorem pairTgt_even (v : Int → ℝ) (m : Int) : pairTgt v (2 * m) = v m := by
  unfold pairTgt
  rw [if_pos (by omega)]
  congr 1
  omega

theorem pairTgt_odd (v : Int → ℝ) (m : Int) : pairTgt v (2 * m + 1) = 0 := by
  unfold pairTgt
  rw [if_neg (by omega)]

theorem randTgt_eq (seed : Int) (x : Nat) : randTgt rnd seed x =
    rnd (rnd (1 / (2 ^ 31 - 1)) * ((16807 ^ (x + 1) * seed % (2 ^ 31 - 1) : Int) : ℝ)) := by
  unfold randTgt seedAfter
  rw [Int.toNat_natCast]
  norm_num

/-- **C61 (initialize, 3d).**  `initialize` writes the promised data to the rank's box and nothing else; the
arithmetic of the random numbers does not overflow. -/
theorem C61_initialize {o : Opt3} {P : Nat} (ho : o.Accepted P) {r : Nat} (hr : r < P) {b : Box3} (hb : b.Proper)
    {w : Mem ℝ} (hw : accessible w 0 (2 * b.count)) :
    ∃ w', o.initialize rnd r b w = some w' ∧ o.Data rnd r b w' ∧
      ∀ x, (x < 0 ∨ 2 * b.count ≤ x) → w' x = w x := by
  have hf := Opt3.initialize_fills rnd hb (seedOk3 ho hr)
  rw [nfft3_eq hb] at hf
  refine ⟨_, hf w hw, ?_, fun x hx => if_neg (by omega)⟩
  have key : ∀ (val : Int × Int × Int → ℝ) (X : Grid3), (∀ i j k, X i j k = ((val (i, j, k) : ℝ) : ℂ)) →
      ∀ w' : Mem ℝ, (∀ x, 0 ≤ x → x < 2 * b.count →
        w' x = some (pairTgt (fun m => ((point3 b m).map val).getD 0) x)) → HoldsBox 0 b X w' := by
    intro val X hX w' hw' i j k hh
    have h1 := addr3_range (permute := 0) (nqty := 1) (q := 0) hh (by decide)
    have h2 := Box3.count_of_has hh
    rw [addr3_two, addr3_two, hw' _ (by omega) (by omega), hw' _ (by omega) (by omega), add_zero, pairTgt_even,
      pairTgt_odd, point3_addr hh, hX]
    exact ⟨rfl, rfl⟩
  have e : ∀ x, 0 ≤ x → x < 2 * b.count →
      (fun x => if 0 ≤ x ∧ x < 2 * b.count then some (o.start rnd r b x) else w x) x = some (o.start rnd r b x) :=
    fun x h0 h1 => if_pos ⟨h0, h1⟩
  revert e
  generalize (fun x => if 0 ≤ x ∧ x < 2 * b.count then some (o.start rnd r b x) else w x) = w'
  intro e
  unfold Opt3.Data
  unfold Opt3.start at e
  rcases hi : o.iflag with _ | _ | _ | n
  · rw [hi] at e
    dsimp only at e ⊢
    intro i j k hh
    have h1 := addr3_range (permute := 0) (nqty := 1) (q := 0) hh (by decide)
    have h2 := Box3.count_of_has hh
    rw [addr3_two, addr3_two, e _ (by omega) (by omega), e _ (by omega) (by omega)]
    exact ⟨rfl, rfl⟩
  · rw [hi] at e
    dsimp only at e ⊢
    refine key (stepAt3 o) _ (fun i j k => ?_) w' e
    unfold stepAt3
    dsimp only
    split_ifs <;> simp
  · rw [hi] at e
    dsimp only at e ⊢
    refine key indexAt3 _ (fun i j k => ?_) w' e
    unfold indexAt3
    push_cast
    ring
  · rw [hi] at e
    dsimp only at e ⊢
    intro x hx
    rw [e x (by omega) hx, randTgt_eq]

theorem C61_initialize_2d {o : Opt2} {P : Nat} (ho : o.Accepted P) {r : Nat} (hr : r < P) {b : Box2} (hb : b.Proper)
    {w : Mem ℝ} (hw : accessible w 0 (2 * b.count)) :
    ∃ w', o.initialize rnd r b w = some w' ∧ o.Data rnd r b w' ∧
      ∀ x, (x < 0 ∨ 2 * b.count ≤ x) → w' x = w x := by
  have hf := Opt2.initialize_fills rnd hb (seedOk2 ho hr)
  rw [nfft2_eq hb] at hf
  refine ⟨_, hf w hw, ?_, fun x hx => if_neg (by omega)⟩
  have key : ∀ (val : Int × Int → ℝ) (X : Grid2), (∀ i j, X i j = ((val (i, j) : ℝ) : ℂ)) →
      ∀ w' : Mem ℝ, (∀ x, 0 ≤ x → x < 2 * b.count →
        w' x = some (pairTgt (fun m => ((point2 b m).map val).getD 0) x)) → HoldsBox2 0 b X w' := by
    intro val X hX w' hw' i j hh
    have h1 := addr2_range (permute := 0) (Or.inl rfl) (nqty := 1) (q := 0) hh (by decide)
    have h3 : ∀ q, addr2 0 b 2 i j q = 2 * addr2 0 b 1 i j 0 + q := by
      intro q
      rw [← addr2_lift (Or.inl rfl), ← addr2_lift (Or.inl rfl), addr3_two]
    rw [h3, h3, hw' _ (by omega) (by omega), hw' _ (by omega) (by omega), add_zero, pairTgt_even,
      pairTgt_odd, point2_addr hh, hX]
    exact ⟨rfl, rfl⟩
  have e : ∀ x, 0 ≤ x → x < 2 * b.count →
      (fun x => if 0 ≤ x ∧ x < 2 * b.count then some (o.start rnd r b x) else w x) x = some (o.start rnd r b x) :=
    fun x h0 h1 => if_pos ⟨h0, h1⟩
  revert e
  generalize (fun x => if 0 ≤ x ∧ x < 2 * b.count then some (o.start rnd r b x) else w x) = w'
  intro e
  unfold Opt2.Data
  unfold Opt2.start at e
  rcases hi : o.iflag with _ | _ | _ | n
  · rw [hi] at e
    dsimp only at e ⊢
    intro i j hh
    have h1 := addr2_range (permute := 0) (Or.inl rfl) (nqty := 2) (q := 0) hh (by decide)
    have h2 := addr2_range (permute := 0) (Or.inl rfl) (nqty := 2) (q := 1) hh (by decide)
    rw [e _ h1.1 h1.2, e _ h2.1 h2.2]
    exact ⟨rfl, rfl⟩
  · rw [hi] at e
    dsimp only at e ⊢
    refine key (stepAt2 o) _ (fun i j => ?_) w' e
    unfold stepAt2
    dsimp only
    split_ifs <;> simp
  · rw [hi] at e
    dsimp only at e ⊢
    refine key indexAt2 _ (fun i j => ?_) w' e
    unfold indexAt2
    push_cast
    ring
  · rw [hi] at e
    dsimp only at e ⊢
    intro x hx
    rw [e x (by omega) hx, randTgt_eq]

theorem Driver.Checks.largest {n : Int} {check : Mem ℝ → Option ℝ} {fill : Mem ℝ → Option (Mem ℝ)} {tgt : Int → ℝ}
    (hc : Checks n check tgt) (hf : Fills n fill tgt) {w0 w1 w : Mem ℝ} (h0 : accessible w0 0 (2 * n))
    (h1 : fill w0 = some w1) (hw : accessible w 0 (2 * n)) : ∃ eps, check w = some eps ∧ Largest (2 * n) w w1 eps := by
  have e1 : ∀ x, 0 ≤ x → x < 2 * n → w1 x = some (tgt x) := by
    intro x ha hb
    rw [hf w0 h0] at h1
    rw [← Option.some.inj h1]
    exact if_pos ⟨ha, hb⟩
  have e2 : ∀ x, 0 ≤ x → x < 2 * n → w x = some ((w x).getD 0) := by
    intro x ha hb
    have := hw x (by omega) (by omega)
    obtain ⟨y, hy⟩ := Option.isSome_iff_exists.mp this
    rw [hy]
    rfl
  obtain ⟨eps, h2, h3, h4, h5⟩ := hc w (fun x => (w x).getD 0) e2
  refine ⟨eps, h2, h3, fun x ha hb => ⟨_, _, e2 x ha hb, e1 x ha hb, h4 x ha hb⟩, ?_⟩
  rcases h5 with h5 | ⟨x, ha, hb, h5⟩
  · exact Or.inl h5
  · exact Or.inr ⟨x, _, _, ha, hb, e2 x ha hb, e1 x ha hb, h5⟩

/-- **C61 (validate, 3d).**  `validate` returns the largest difference between the array and what `initialize`
wrote. -/
theorem C61_validate {o : Opt3} {P : Nat} (ho : o.Accepted P) {r : Nat} (hr : r < P) {b : Box3} (hb : b.Proper)
    {w0 w1 w : Mem ℝ} (h0 : accessible w0 0 (2 * b.count)) (h1 : o.initialize rnd r b w0 = some w1)
    (hw : accessible w 0 (2 * b.count)) :
    ∃ eps, o.validate rnd r b w = some eps ∧ Largest (2 * b.count) w w1 eps := by
  have hf := Opt3.initialize_fills rnd hb (seedOk3 ho hr)
  have hc := Opt3.validate_checks rnd hb (seedOk3 ho hr)
  rw [nfft3_eq hb] at hf hc
  exact hc.largest hf h0 h1 hw

theorem C61_validate_2d {o : Opt2} {P : Nat} (ho : o.Accepted P) {r : Nat} (hr : r < P) {b : Box2} (hb : b.Proper)
    {w0 w1 w : Mem ℝ} (h0 : accessible w0 0 (2 * b.count)) (h1 : o.initialize rnd r b w0 = some w1)
    (hw : accessible w 0 (2 * b.count)) :
    ∃ eps, o.validate rnd r b w = some eps ∧ Largest (2 * b.count) w w1 eps := by
  have hf := Opt2.initialize_fills rnd hb (seedOk2 ho hr)
  have hc := Opt2.validate_checks rnd hb (seedOk2 ho hr)
  rw [nfft2_eq hb] at hf hc
  exact hc.largest hf h0 h1 hw

/-- Random data on rank 1 of 2 in a box of 12 points meet the hypotheses. -/
example : ({ default3 with iflag := .random 12345 } : Opt3).Accepted 2 ∧ (⟨0, 2, 0, 1, 1, 2⟩ : Box3).Proper :=
  ⟨{ default3_accepted (P := 2) (by decide) with
      seed := by
        intro n hn r hr
        cases hn
        omega }, by simp [Box3.Proper, Box3.isize, Box3.jsize, Box3.ksize]⟩

/-! ## The programs -/

/-- All ranks validate. -/
theorem Driver.eps_all {P : Nat} (hP : 0 < P) {cnt : Nat → Int} {v tgt : Nat → Int → ℝ} {m : Nat → LMem ℝ}
    (hv : Vals P cnt v m) {check : Nat → Mem ℝ → Option ℝ} (hc : ∀ r < P, Checks (cnt r) (check r) (tgt r)) :
    ∃ eps, epsmax P (fun r => check r ((m r).ub 0)) = some eps ∧ 0 ≤ eps ∧
      (∀ r < P, ∀ x, 0 ≤ x → x < 2 * cnt r → |v r x - tgt r x| ≤ eps) ∧
      (eps = 0 ∨ ∃ r < P, ∃ x, 0 ≤ x ∧ x < 2 * cnt r ∧ eps = |v r x - tgt r x|) := by
  have h : ∀ r, ∃ y, r < P → check r ((m r).ub 0) = some y ∧ 0 ≤ y ∧
      (∀ x, 0 ≤ x → x < 2 * cnt r → |v r x - tgt r x| ≤ y) ∧
      (y = 0 ∨ ∃ x, 0 ≤ x ∧ x < 2 * cnt r ∧ y = |v r x - tgt r x|) := by
    intro r
    by_cases hr : r < P
    · obtain ⟨y, hy⟩ := hc r hr _ (v r) (hv r hr)
      exact ⟨y, fun _ => hy⟩
    · exact ⟨0, fun h => absurd h hr⟩
  choose y hy using h
  obtain ⟨eps, h1, h2, r0, hr0, h3⟩ := epsmax_ok hP (eps := fun r => check r ((m r).ub 0)) (v := y)
    fun r hr => (hy r hr).1
  refine ⟨eps, h1, (hy r0 hr0).2.1.trans (h2 r0 hr0), ?_, ?_⟩
  · intro r hr x ha hb
    exact ((hy r hr).2.2.1 x ha hb).trans (h2 r hr)
  · rcases (hy r0 hr0).2.2.2 with h | ⟨x, ha, hb, h⟩
    · exact Or.inl (h3.trans h)
    · exact Or.inr ⟨r0, hr0, x, ha, hb, h3.trans h⟩

/-- The run up to `validate`: the reported error is that of multiplying by the factors of the passes. -/
theorem Driver.run3 {o : Opt3} {P : Nat} (ho : o.Accepted P) (hm : o.mode < 2) {a : Args3} {f : Nat → Fft3 ℝ}
    {st : Settings} (S : SetUp3 P a st f) (e : Bool) (J J' : Nat → Nat → Nat → Junk) {m : Nat → LMem ℝ}
    (hb : Bufs P f 0 m) (hr : RoomBack P a st m) :
    ∃ m' eps, Terminates e P (fun r => o.run rnd r (a.ins r) (f r) (J r) (J' r)) m m' ∧
      epsmax P (fun r => o.validate rnd r (a.ins r) ((m' r).ub 0)) = some eps ∧ 0 ≤ eps ∧
      (∀ r < P, ∀ x, 0 ≤ x → x < 2 * (a.ins r).count →
        |passFactor a.N o.rflag (a.outs r).count x ^ o.nloop * o.start rnd r (a.ins r) x -
          o.start rnd r (a.ins r) x| ≤ eps) ∧
      (eps = 0 ∨ ∃ r < P, ∃ x, 0 ≤ x ∧ x < 2 * (a.ins r).count ∧
        eps = |passFactor a.N o.rflag (a.outs r).count x ^ o.nloop * o.start rnd r (a.ins r) x -
          o.start rnd r (a.ins r) x|) := by
  have hs : ∀ r < P, 0 ≤ (a.ins r).count ∧ (a.ins r).count ≤ fsz f r := by
    obtain ⟨c, rfl, rfl, rfl, _, R⟩ := S.ready
    exact fun r hr => ⟨count_nonneg _, R.size_ins hr⟩
  have hf : ∀ r < P, Fills (a.ins r).count (o.initialize rnd r (a.ins r)) (o.start rnd r (a.ins r)) := by
    intro r hr
    rw [← nfft3_eq (S.args.properIn r hr).1]
    exact Opt3.initialize_fills rnd (S.args.properIn r hr).1 (seedOk3 ho hr)
  have hc : ∀ r < P, Checks (a.ins r).count (o.validate rnd r (a.ins r)) (o.start rnd r (a.ins r)) := by
    intro r hr
    rw [← nfft3_eq (S.args.properIn r hr).1]
    exact Opt3.validate_checks rnd (S.args.properIn r hr).1 (seedOk3 ho hr)
  obtain ⟨m1, s1, h1⟩ := fillStep e (size := fsz f) (m := m) hs hb.data hf
  obtain ⟨m2, s2, h2⟩ := loop3_ok S e J J' o.rflag hm h1 (hb.congr s1.dom) (hr.congr s1.dom) o.nloop
  obtain ⟨eps, h3, h4, h5, h6⟩ := eps_all ho.procs h2 hc
  exact ⟨m2, eps, ((s1.append s2).congr fun r _ => rfl).ok.terminates, h3, h4, h5, h6⟩

theorem Driver.run2 {o : Opt2} {P : Nat} (ho : o.Accepted P) (hm : o.mode < 2) {w : Int} {a : Args2} {f : Nat → Fft2 ℝ}
    {st : Settings} (S : SetUp2 w P a st f) (e : Bool) (J J' : Nat → Nat → Nat → Junk) {m : Nat → LMem ℝ}
    (hb : Bufs2 P f 0 m) :
    ∃ m' eps, Terminates e P (fun r => o.run rnd r (a.ins r) (f r) (J r) (J' r)) m m' ∧
      epsmax P (fun r => o.validate rnd r (a.ins r) ((m' r).ub 0)) = some eps ∧ 0 ≤ eps ∧
      (∀ r < P, ∀ x, 0 ≤ x → x < 2 * (a.ins r).count →
        |passFactor a.N o.rflag (a.outs r).count x ^ o.nloop * o.start rnd r (a.ins r) x -
          o.start rnd r (a.ins r) x| ≤ eps) ∧
      (eps = 0 ∨ ∃ r < P, ∃ x, 0 ≤ x ∧ x < 2 * (a.ins r).count ∧
        eps = |passFactor a.N o.rflag (a.outs r).count x ^ o.nloop * o.start rnd r (a.ins r) x -
          o.start rnd r (a.ins r) x|) := by
  have hs : ∀ r < P, 0 ≤ (a.ins r).count ∧ (a.ins r).count ≤ fsz2 f r := by
    obtain ⟨c, rfl, rfl, rfl, rfl, _, R⟩ := S.ready
    exact fun r hr => ⟨by rw [← Box2.lift_count]; exact count_nonneg _, R.size_ins hr⟩
  have hf : ∀ r < P, Fills (a.ins r).count (o.initialize rnd r (a.ins r)) (o.start rnd r (a.ins r)) := by
    intro r hr
    rw [← nfft2_eq (S.args.properIn r hr).1]
    exact Opt2.initialize_fills rnd (S.args.properIn r hr).1 (seedOk2 ho hr)
  have hc : ∀ r < P, Checks (a.ins r).count (o.validate rnd r (a.ins r)) (o.start rnd r (a.ins r)) := by
    intro r hr
    rw [← nfft2_eq (S.args.properIn r hr).1]
    exact Opt2.validate_checks rnd (S.args.properIn r hr).1 (seedOk2 ho hr)
  obtain ⟨m1, s1, h1⟩ := fillStep e (size := fsz2 f) (m := m) hs hb.data hf
  obtain ⟨m2, s2, h2⟩ := loop2_ok S e J J' o.rflag hm h1 (hb.congr s1.dom) o.nloop
  obtain ⟨eps, h3, h4, h5, h6⟩ := eps_all ho.procs h2 hc
  exact ⟨m2, eps, ((s1.append s2).congr fun r _ => rfl).ok.terminates, h3, h4, h5, h6⟩

theorem passFactor_one {N : ℝ} {rflag : Bool} {out cnt x : Int} {n : Nat} (h : rflag = true ∨ n = 0 ∨ cnt ≤ out)
    (h1 : x < 2 * cnt) : passFactor N rflag out x ^ n = 1 := by
  unfold passFactor
  rcases h with h | h | h
  · rw [if_pos (Or.inl h), one_pow]
  · rw [h, pow_zero]
  · rw [if_pos (Or.inr (by omega)), one_pow]

/-- **C61 (validation, 3d, partial).**  In exact arithmetic the program prints the error 0 after any number of
passes, whatever the initial data.  Missing: no rank may have more points on input than on output, unless only
data are moved; without this condition the claim is false, see `C61_index_iff`. -/
theorem C61_validation_partial {o : Opt3} {P : Nat} (ho : o.Accepted P) (hm : o.mode < 2) {a : Args3}
    (_ha : o.args rnd P = some a) {f : Nat → Fft3 ℝ} (S : SetUp3 P a o.settings f) (e : Bool)
    (J J' : Nat → Nat → Nat → Junk) {m : Nat → LMem ℝ} (hb : Bufs P f 0 m) (hr : RoomBack P a o.settings m)
    (hio : o.rflag = true ∨ o.nloop = 0 ∨ ∀ r < P, (a.ins r).count ≤ (a.outs r).count) :
    ∃ m', Terminates e P (fun r => o.run rnd r (a.ins r) (f r) (J r) (J' r)) m m' ∧
      epsmax P (fun r => o.validate rnd r (a.ins r) ((m' r).ub 0)) = some 0 := by
  obtain ⟨m', eps, h1, h2, _, _, h5⟩ := run3 (rnd := rnd) ho hm S e J J' hb hr
  refine ⟨m', h1, ?_⟩
  rcases h5 with rfl | ⟨r, hr, x, ha, hx, rfl⟩
  · exact h2
  · rw [h2, passFactor_one (hio.imp_right fun h => h.imp_right fun h => h r hr) hx, one_mul, sub_self, abs_zero]

theorem C61_validation_2d_partial {o : Opt2} {P : Nat} (ho : o.Accepted P) (hm : o.mode < 2) {w : Int} {a : Args2}
    (_ha : o.args rnd P = some a) {f : Nat → Fft2 ℝ} (S : SetUp2 w P a o.settings f) (e : Bool)
    (J J' : Nat → Nat → Nat → Junk) {m : Nat → LMem ℝ} (hb : Bufs2 P f 0 m)
    (hio : o.rflag = true ∨ o.nloop = 0 ∨ ∀ r < P, (a.ins r).count ≤ (a.outs r).count) :
    ∃ m', Terminates e P (fun r => o.run rnd r (a.ins r) (f r) (J r) (J' r)) m m' ∧
      epsmax P (fun r => o.validate rnd r (a.ins r) ((m' r).ub 0)) = some 0 := by
  obtain ⟨m', eps, h1, h2, _, _, h5⟩ := run2 (rnd := rnd) ho hm S e J J' hb
  refine ⟨m', h1, ?_⟩
  rcases h5 with rfl | ⟨r, hr, x, ha, hx, rfl⟩
  · exact h2
  · rw [h2, passFactor_one (hio.imp_right fun h => h.imp_right fun h => h r hr) hx, one_mul, sub_self, abs_zero]

/-- A rank with more points on input than on output. -/
theorem gap_error {N : ℝ} (hN : 1 ≤ N) {rflag : Bool} (hr : rflag = false) {out : Int} {n : Nat} {v : ℝ} (hv : 1 ≤ v) :
    N ^ n - 1 ≤ |passFactor N rflag out (2 * out) ^ n * v - v| := by
  have h1 : passFactor N rflag out (2 * out) = N := by
    unfold passFactor
    rw [if_neg (by rw [hr]; simp)]
  have h2 : (1 : ℝ) ≤ N ^ n := one_le_pow₀ hN
  rw [h1, show N ^ n * v - v = (N ^ n - 1) * v by ring, abs_of_nonneg (by nlinarith)]
  nlinarith

/-- **C61 (validation with `-i index`, 3d).**  With the data `index` the printed error is 0 if and only if no rank
has more points on input than on output, or data are only moved, or the loop is empty; otherwise it is at least
`N^nloop - 1`, where `N` is the number of grid points. -/
theorem C61_index_iff {o : Opt3} {P : Nat} (ho : o.Accepted P) (hm : o.mode < 2) (hi : o.iflag = .index) {a : Args3}
    (_ha : o.args rnd P = some a) {f : Nat → Fft3 ℝ} (S : SetUp3 P a o.settings f) (e : Bool)
    (J J' : Nat → Nat → Nat → Junk) {m : Nat → LMem ℝ} (hb : Bufs P f 0 m) (hr : RoomBack P a o.settings m) :
    ∃ m' eps, Terminates e P (fun r => o.run rnd r (a.ins r) (f r) (J r) (J' r)) m m' ∧
      epsmax P (fun r => o.validate rnd r (a.ins r) ((m' r).ub 0)) = some eps ∧
      (eps = 0 ↔ (o.rflag = true ∨ o.nloop = 0 ∨ ∀ r < P, (a.ins r).count ≤ (a.outs r).count)) ∧
      (eps ≠ 0 → (a.nfast * a.nmid * a.nslow : ℝ) ^ o.nloop - 1 ≤ eps) := by
  obtain ⟨m', eps, h1, h2, h3, h4, h5⟩ := run3 (rnd := rnd) ho hm S e J J' hb hr
  have hN : (8 : ℝ) ≤ a.N := by
    have q1 : (2 : ℝ) ≤ a.nfast := by exact_mod_cast S.args.fast.1
    have q2 : (2 : ℝ) ≤ a.nmid := by exact_mod_cast S.args.mid.1
    have q3 : (2 : ℝ) ≤ a.nslow := by exact_mod_cast S.args.slow.1
    have q4 : (4 : ℝ) ≤ a.nfast * a.nmid := by nlinarith
    unfold Args3.N
    nlinarith
  have back : (o.rflag = true ∨ o.nloop = 0 ∨ ∀ r < P, (a.ins r).count ≤ (a.outs r).count) → eps = 0 := by
    intro hio
    rcases h5 with rfl | ⟨r, hr, x, ha, hx, rfl⟩
    · rfl
    · rw [passFactor_one (hio.imp_right fun h => h.imp_right fun h => h r hr) hx, one_mul, sub_self, abs_zero]
  have big : ¬(o.rflag = true ∨ o.nloop = 0 ∨ ∀ r < P, (a.ins r).count ≤ (a.outs r).count) →
      a.N ^ o.nloop - 1 ≤ eps := by
    intro hio
    push Not at hio
    obtain ⟨g1, g2, r, hr, g3⟩ := hio
    have g0 := count_nonneg (a.outs r)
    refine le_trans (gap_error (by linarith) (by simpa using g1) ?_) (h4 r hr (2 * (a.outs r).count) (by omega) (by omega))
    have e1 : o.start rnd r (a.ins r) (2 * (a.outs r).count) =
        ((point3 (a.ins r) (a.outs r).count).map indexAt3).getD 0 := by
      unfold Opt3.start
      rw [hi]
      exact pairTgt_even _ _
    obtain ⟨i, j, k, hh, _, hp⟩ := point3_ok (S.args.properIn r hr).1 (m := (a.outs r).count) g0
      (by rw [nfft3_eq (S.args.properIn r hr).1]; exact g3)
    obtain ⟨q1, q2, q3⟩ := S.args.tilesIn.inside r hr i j k hh
    rw [e1, hp]
    show (1 : ℝ) ≤ indexAt3 (i, j, k)
    unfold indexAt3
    exact_mod_cast (by omega : (1 : Int) ≤ k + j + i + 1)
  refine ⟨m', eps, h1, h2, ⟨fun h0 => ?_, back⟩, fun h0 => big fun h => h0 (back h)⟩
  by_contra hio
  have hb' := big hio
  push Not at hio
  have h8 : a.N ≤ a.N ^ o.nloop := le_self_pow₀ (by linarith) hio.2.1
  linarith

/-- **C61 (validation with `-i index`, 2d).** -/
theorem C61_index_iff_2d {o : Opt2} {P : Nat} (ho : o.Accepted P) (hm : o.mode < 2) (hi : o.iflag = .index) {w : Int}
    {a : Args2} (_ha : o.args rnd P = some a) {f : Nat → Fft2 ℝ} (S : SetUp2 w P a o.settings f) (e : Bool)
    (J J' : Nat → Nat → Nat → Junk) {m : Nat → LMem ℝ} (hb : Bufs2 P f 0 m) :
    ∃ m' eps, Terminates e P (fun r => o.run rnd r (a.ins r) (f r) (J r) (J' r)) m m' ∧
      epsmax P (fun r => o.validate rnd r (a.ins r) ((m' r).ub 0)) = some eps ∧
      (eps = 0 ↔ (o.rflag = true ∨ o.nloop = 0 ∨ ∀ r < P, (a.ins r).count ≤ (a.outs r).count)) ∧
      (eps ≠ 0 → (a.nfast * a.nslow : ℝ) ^ o.nloop - 1 ≤ eps) := by
  obtain ⟨m', eps, h1, h2, h3, h4, h5⟩ := run2 (rnd := rnd) ho hm S e J J' hb
  have hN : (4 : ℝ) ≤ a.N := by
    have q1 : (2 : ℝ) ≤ a.nfast := by exact_mod_cast S.args.fast.1
    have q3 : (2 : ℝ) ≤ a.nslow := by exact_mod_cast S.args.slow.1
    unfold Args2.N
    nlinarith
  have back : (o.rflag = true ∨ o.nloop = 0 ∨ ∀ r < P, (a.ins r).count ≤ (a.outs r).count) → eps = 0 := by
    intro hio
    rcases h5 with rfl | ⟨r, hr, x, ha, hx, rfl⟩
    · rfl
    · rw [passFactor_one (hio.imp_right fun h => h.imp_right fun h => h r hr) hx, one_mul, sub_self, abs_zero]
  have big : ¬(o.rflag = true ∨ o.nloop = 0 ∨ ∀ r < P, (a.ins r).count ≤ (a.outs r).count) →
      a.N ^ o.nloop - 1 ≤ eps := by
    intro hio
    push Not at hio
    obtain ⟨g1, g2, r, hr, g3⟩ := hio
    have g0 : 0 ≤ (a.outs r).count := by rw [← Box2.lift_count]; exact count_nonneg _
    refine le_trans (gap_error (by linarith) (by simpa using g1) ?_) (h4 r hr (2 * (a.outs r).count) (by omega) (by omega))
    have e1 : o.start rnd r (a.ins r) (2 * (a.outs r).count) =
        ((point2 (a.ins r) (a.outs r).count).map indexAt2).getD 0 := by
      unfold Opt2.start
      rw [hi]
      exact pairTgt_even _ _
    obtain ⟨i, j, hh, _, hp⟩ := point2_ok (S.args.properIn r hr).1 (m := (a.outs r).count) g0
      (by rw [nfft2_eq (S.args.properIn r hr).1]; exact g3)
    obtain ⟨q1, q2⟩ := S.args.tilesIn.inside r hr i j hh
    rw [e1, hp]
    show (1 : ℝ) ≤ indexAt2 (i, j)
    unfold indexAt2
    exact_mod_cast (by omega : (1 : Int) ≤ j + i + 1)
  refine ⟨m', eps, h1, h2, ⟨fun h0 => ?_, back⟩, fun h0 => big fun h => h0 (back h)⟩
  by_contra hio
  have hb' := big hio
  push Not at hio
  have h8 : a.N ≤ a.N ^ o.nloop := le_self_pow₀ (by linarith) hio.2.1
  linarith

/-- **C61 (modes 2 and 3, 3d).**  The forward-only modes always run to the end. -/
theorem C61_forward {o : Opt3} {P : Nat} (ho : o.Accepted P) (hm : 2 ≤ o.mode) {a : Args3}
    (_ha : o.args rnd P = some a) {f : Nat → Fft3 ℝ} (S : SetUp3 P a o.settings f) (e : Bool)
    (J J' : Nat → Nat → Nat → Junk) {m : Nat → LMem ℝ} (hb : Bufs P f 0 m) :
    ∃ m', Terminates e P (fun r => o.run rnd r (a.ins r) (f r) (J r) (J' r)) m m' := by
  have hs : ∀ r < P, 0 ≤ (a.ins r).count ∧ (a.ins r).count ≤ fsz f r := by
    obtain ⟨c, rfl, rfl, _, _, R⟩ := S.ready
    exact fun r hr => ⟨count_nonneg _, R.size_ins hr⟩
  have hf : ∀ r < P, Fills (a.ins r).count (o.initialize rnd r (a.ins r)) (o.start rnd r (a.ins r)) := by
    intro r hr
    rw [← nfft3_eq (S.args.properIn r hr).1]
    exact Opt3.initialize_fills rnd (S.args.properIn r hr).1 (seedOk3 ho hr)
  obtain ⟨m1, s1, _⟩ := fillStep e (size := fsz f) (m := m) hs hb.data hf
  obtain ⟨m2, s2⟩ := loop3_fwd S e J J' o.rflag (mode := o.mode) (by omega) (hb.congr s1.dom) o.nloop
  exact ⟨m2, ((s1.append s2).congr fun r _ => rfl).ok.terminates⟩

/-- **C61 (mode 2, 2d).** -/
theorem C61_forward_2d {o : Opt2} {P : Nat} (ho : o.Accepted P) (hm : 2 ≤ o.mode) {w : Int} {a : Args2}
    (_ha : o.args rnd P = some a) {f : Nat → Fft2 ℝ} (S : SetUp2 w P a o.settings f) (e : Bool)
    (J J' : Nat → Nat → Nat → Junk) {m : Nat → LMem ℝ} (hb : Bufs2 P f 0 m) :
    ∃ m', Terminates e P (fun r => o.run rnd r (a.ins r) (f r) (J r) (J' r)) m m' := by
  have hs : ∀ r < P, 0 ≤ (a.ins r).count ∧ (a.ins r).count ≤ fsz2 f r := by
    obtain ⟨c, rfl, rfl, rfl, _, _, R⟩ := S.ready
    exact fun r hr => ⟨by rw [← Box2.lift_count]; exact count_nonneg _, R.size_ins hr⟩
  have hf : ∀ r < P, Fills (a.ins r).count (o.initialize rnd r (a.ins r)) (o.start rnd r (a.ins r)) := by
    intro r hr
    rw [← nfft2_eq (S.args.properIn r hr).1]
    exact Opt2.initialize_fills rnd (S.args.properIn r hr).1 (seedOk2 ho hr)
  obtain ⟨m1, s1, _⟩ := fillStep e (size := fsz2 f) (m := m) hs hb.data hf
  obtain ⟨m2, s2⟩ := loop2_fwd S e J J' o.rflag (mode := o.mode) (by omega) (hb.congr s1.dom) o.nloop
  exact ⟨m2, ((s1.append s2).congr fun r _ => rfl).ok.terminates⟩

/-! ## Whole programs -/

/-- **C61 (test3d in mode 0).**  `test3d -v` in mode 0 with the same processor grid for input and output (the
default): for every supported grid, every number of ranks, all data, every number of passes and all settings,
`setup` succeeds on all ranks, every execution with the memory that the program allocates runs to the end, and the
error printed is 0. -/
theorem C61_test3d (R : Rounding rnd) {o : Opt3} {P : Nat} (ho : o.Accepted P) (hs : o.Small P)
    (hx : Supported o.nx) (hy : Supported o.ny) (hz : Supported o.nz) (hm : o.mode = 0) (hp : o.pin = o.pout) :
    ∃ (a : Args3) (f : Nat → Fft3 ℝ), o.args rnd P = some a ∧ (∀ r < P, fft3Setup P r a o.settings = some (.ok (f r))) ∧
      ∀ (e : Bool) (J J' : Nat → Nat → Nat → Junk) (m : Nat → LMem ℝ),
        (∀ r < P, accessible ((m r).ub 0) 0 (2 * (f r).fftsize) ∧ accessible (m r).sb 0 (f r).sendsize ∧
          accessible (m r).rb 0 (f r).recvsize) →
        ∃ m', Terminates e P (fun r => o.run rnd r (a.ins r) (f r) (J r) (J' r)) m m' ∧
          epsmax P (fun r => o.validate rnd r (a.ins r) ((m' r).ub 0)) = some 0 := by
  obtain ⟨a, ha, hv, _⟩ := C60_args_valid R ho hs hx hy hz
  have hst : o.settings.Valid := by
    unfold Settings.Valid Opt3.settings
    exact ho.pflag
  obtain ⟨f, S⟩ := setUp3_exists hv hst
  have hgrid : o.inGrid rnd P = o.outGrid rnd P := by
    unfold Opt3.inGrid Opt3.outGrid
    rw [hp, if_pos (Or.inl hm)]
  have hsame : a.permute = 0 ∧ a.ins = a.outs := by
    have ha' := ha
    unfold Opt3.args at ha'
    rw [hgrid] at ha'
    simp only [Option.bind_eq_some_iff, Option.map_eq_some_iff] at ha'
    obtain ⟨p, h1, q, h2, rfl⟩ := ha'
    rw [h1] at h2
    cases h2
    simp [hm]
  refine ⟨a, f, ha, S.result, ?_⟩
  intro e J J' m hmem
  exact C61_validation_partial ho (by omega) ha S e J J'
    ⟨fun r hr => (hmem r hr).1, fun r hr => (hmem r hr).2.1, fun r hr => (hmem r hr).2.2⟩
    (Or.inr (Or.inl ⟨hsame.1, fun r _ => by rw [hsame.2]⟩)) (Or.inr (Or.inr fun r _ => by rw [hsame.2]))

/-- **C61 (test2d in mode 0).**  The same for test2d if both processor grids are given and are the same: the
default is a different grid for the output. -/
theorem C61_test2d (R : Rounding rnd) {o : Opt2} {P : Nat} (ho : o.Accepted P) (hs : o.Small P) {w : Int}
    (hw : o.pflag = 2 → w = 1) (hx : Supported o.nx) (hy : Supported o.ny) (hm : o.mode = 0) (hp : o.pin = o.pout)
    (hg : o.pin ≠ (0, 0)) :
    ∃ (a : Args2) (f : Nat → Fft2 ℝ), o.args rnd P = some a ∧ (∀ r < P, fft2Setup w P r a o.settings = some (.ok (f r))) ∧
      ∀ (e : Bool) (J J' : Nat → Nat → Nat → Junk) (m : Nat → LMem ℝ),
        (∀ r < P, accessible ((m r).ub 0) 0 (2 * (f r).fftsize) ∧ accessible (m r).sb 0 (f r).sendsize ∧
          accessible (m r).rb 0 (f r).recvsize) →
        ∃ m', Terminates e P (fun r => o.run rnd r (a.ins r) (f r) (J r) (J' r)) m m' ∧
          epsmax P (fun r => o.validate rnd r (a.ins r) ((m' r).ub 0)) = some 0 := by
  obtain ⟨a, ha, hv, _⟩ := C60_args_valid_2d_partial R ho hs hx hy (Or.inl hm)
  have hst : o.settings.Valid2 w := by
    unfold Settings.Valid2 FlagOk2 Opt2.settings
    have := ho.pflag
    tauto
  obtain ⟨f, S⟩ := setUp2_exists hv hst
  have hne : o.pin.1 ≠ 0 ∨ o.pin.2 ≠ 0 := by
    by_contra h
    push Not at h
    exact hg (Prod.ext h.1 h.2)
  have hgrid : o.inGrid rnd P = o.outGrid P := by
    unfold Opt2.inGrid Opt2.outGrid
    rw [← hp, if_pos hne, if_pos hne]
  have hsame : a.ins = a.outs := by
    have ha' := ha
    unfold Opt2.args at ha'
    rw [hgrid] at ha'
    simp only [Option.bind_eq_some_iff, Option.map_eq_some_iff] at ha'
    obtain ⟨p, h1, q, h2, rfl⟩ := ha'
    rw [h1] at h2
    cases h2
    rfl
  refine ⟨a, f, ha, S.result, ?_⟩
  intro e J J' m hmem
  exact C61_validation_2d_partial ho (by omega) ha S e J J'
    ⟨fun r hr => (hmem r hr).1, fun r hr => (hmem r hr).2.1, fun r hr => (hmem r hr).2.2⟩
    (Or.inr (Or.inr fun r _ => by rw [hsame]))

/-- The hypotheses of `C61_test3d` with 7 ranks, random data and 10 passes. -/
example : let o : Opt3 := { default3 with iflag := .random 1, nloop := 10, nx := 60 }
    o.Accepted 7 ∧ o.Small 7 ∧ Supported o.nx ∧ Supported o.ny ∧ Supported o.nz ∧ o.mode = 0 ∧ o.pin = o.pout :=
  ⟨{ default3_accepted (P := 7) (by decide) with
      nx := by decide
      seed := by
        intro n hn r hr
        cases hn
        omega }, by simp [Opt3.Small, default3],
    supported_of (k := 3) (by decide) (by decide), supported_of (k := 3) (by decide) (by decide),
    supported_of (k := 3) (by decide) (by decide), rfl, rfl⟩

/-- **C61 (test3d with different grids).**  `mpirun -np 2 test3d -g 2 2 3 -pin 1 1 2 -pout 1 2 1 -i index -v`: the
program runs to the end and prints an error of at least 11 instead of 0, in exact arithmetic. -/
theorem C61_test3d_false (R : Rounding rnd) (e : Bool) (J J' : Nat → Nat → Nat → Junk) :
    let o : Opt3 := { default3 with iflag := .index, nx := 2, ny := 2, nz := 3, pin := (1, 1, 2), pout := (1, 2, 1) }
    o.Accepted 2 ∧ ∃ (a : Args3) (f : Nat → Fft3 ℝ), o.args rnd 2 = some a ∧
      (∀ r < 2, fft3Setup 2 r a o.settings = some (.ok (f r))) ∧
      ∀ m : Nat → LMem ℝ, Bufs 2 f 0 m →
        ∃ m' eps, Terminates e 2 (fun r => o.run rnd r (a.ins r) (f r) (J r) (J' r)) m m' ∧
          epsmax 2 (fun r => o.validate rnd r (a.ins r) ((m' r).ub 0)) = some eps ∧ 11 ≤ eps := by
  intro o
  have ho : o.Accepted 2 :=
    { procs := by decide
      nx := by decide
      ny := by decide
      nz := by decide
      pin := Or.inr rfl
      pout := Or.inr rfl
      seed := fun n h => (nomatch h)
      mode := by decide
      pflag := Or.inr (Or.inr rfl) }
  have hsm : o.Small 2 := by simp [o, Opt3.Small]
  have h2 : Supported 2 := supported_of (k := 1) (by decide) (by decide)
  have h3 : Supported 3 := supported_of (k := 1) (by decide) (by decide)
  refine ⟨ho, ?_⟩
  obtain ⟨a, ha, hv, hn1, hn2, hn3⟩ := C60_args_valid R ho hsm h2 h2 h3
  have hst : o.settings.Valid := Or.inr (Or.inr rfl)
  obtain ⟨f, S⟩ := setUp3_exists hv hst
  refine ⟨a, f, ha, S.result, ?_⟩
  intro m hb
  obtain ⟨m', eps, k1, k2, k3, k4⟩ := C61_index_iff ho (by decide) rfl ha S e J J' hb (Or.inl rfl)
  refine ⟨m', eps, k1, k2, ?_⟩
  have hne : eps ≠ 0 := by
    rw [Ne, k3]
    rintro (h | h | h)
    · exact (nomatch h)
    · exact (nomatch h)
    · have ha' := ha
      have e1 : o.inGrid rnd 2 = some (1, 1, 2) := rfl
      have e2 : o.outGrid rnd 2 = some (1, 2, 1) := rfl
      unfold Opt3.args at ha'
      rw [e1, e2] at ha'
      cases ha'
      have h' := h 1 (by decide)
      dsimp only at h'
      rw [box3_eq R (P := 2) (by decide) (by decide) ⟨by decide, by decide⟩ ⟨by decide, by decide⟩ ⟨by decide, by decide⟩
          (by decide),
        box3_eq R (P := 2) (by decide) (by decide) ⟨by decide, by decide⟩ ⟨by decide, by decide⟩ ⟨by decide, by decide⟩
          (by decide)] at h'
      revert h'
      decide
  have := k4 hne
  have q1 : (a.nfast : ℝ) = 2 := by rw [hn1]; rfl
  have q2 : (a.nmid : ℝ) = 2 := by rw [hn2]; rfl
  have q3 : (a.nslow : ℝ) = 3 := by rw [hn3]; rfl
  rw [q1, q2, q3, show o.nloop = 1 from rfl] at this
  linarith

/-- The processor grid of 6 ranks for 8 by 8 points. -/
theorem inGrid2_six (R : Rounding rnd) {o : Opt2} (hx : o.nx = 8) (hy : o.ny = 8) (hp : o.pin = (0, 0)) :
    o.inGrid rnd 6 = some (2, 3) ∨ o.inGrid rnd 6 = some (3, 2) := by
  obtain ⟨⟨p1, p2⟩, h1, h2, h3⟩ := C60_proc2d R (nx := 8) (ny := 8) (P := 6) (by decide) (by decide) (by decide) (0, 0)
  unfold Opt2.inGrid
  rw [hp, hx, hy, if_neg (by simp), h1]
  have h4 := h3 (2, 3) rfl
  have hd : p1 ∣ 6 := Dvd.intro _ h2
  have hle : p1 ≤ 6 := Nat.le_of_dvd (by decide) hd
  dsimp only at h2
  unfold edge2 at h4
  dsimp only at h4
  interval_cases p1
  · omega
  · have : p2 = 6 := by omega
    subst this
    norm_num at h4
  · left; congr; omega
  · right; congr; omega
  · omega
  · omega
  · have : p2 = 1 := by omega
    subst this
    norm_num at h4

/-- **C61 (test2d with its default grids).**  `mpirun -np 6 test2d -i index -v`: the program runs to the end and
prints an error of at least 63 instead of 0, in exact arithmetic. -/
theorem C61_test2d_false (R : Rounding rnd) {w : Int} (hw : w = 1) (e : Bool) (J J' : Nat → Nat → Nat → Junk) :
    let o : Opt2 := { default2 with iflag := .index }
    o.Accepted 6 ∧ ∃ (a : Args2) (f : Nat → Fft2 ℝ), o.args rnd 6 = some a ∧ (∀ r < 6, fft2Setup w 6 r a o.settings = some (.ok (f r))) ∧
      ∀ m : Nat → LMem ℝ, Bufs2 6 f 0 m →
        ∃ m' eps, Terminates e 6 (fun r => o.run rnd r (a.ins r) (f r) (J r) (J' r)) m m' ∧
          epsmax 6 (fun r => o.validate rnd r (a.ins r) ((m' r).ub 0)) = some eps ∧ 63 ≤ eps := by
  intro o
  have ho : o.Accepted 6 := { default2_accepted (P := 6) (by decide) with seed := fun n h => (nomatch h) }
  have hsm : o.Small 6 := by simp [o, Opt2.Small, default2]
  have h8 : Supported 8 := supported_of (k := 3) (by decide) (by decide)
  refine ⟨ho, ?_⟩
  obtain ⟨a, ha, hv, hn1, hn2⟩ := C60_args_valid_2d_partial R ho hsm h8 h8 (Or.inl rfl)
  have hst : o.settings.Valid2 w := Or.inr (Or.inr ⟨rfl, hw⟩)
  obtain ⟨f, S⟩ := setUp2_exists hv hst
  refine ⟨a, f, ha, S.result, ?_⟩
  intro m hb
  obtain ⟨m', eps, h1, h2, h3, h4⟩ := C61_index_iff_2d ho (by decide) rfl ha S e J J' hb
  refine ⟨m', eps, h1, h2, ?_⟩
  have hne : eps ≠ 0 := by
    rw [Ne, h3]
    rintro (h | h | h)
    · exact (nomatch h)
    · exact (nomatch h)
    · have ha' := ha
      have ho2 : o.outGrid 6 = some (6, 1) := rfl
      have eq : ∀ p : Nat × Nat, p.1 * p.2 = 6 → ∀ r < 6, box2 rnd p o.nx o.ny r = gridBox2 p 8 8 r :=
        fun p hp r hr => box2_eq R hp (by decide) ⟨by decide, by decide⟩ ⟨by decide, by decide⟩ hr
      unfold Opt2.args at ha'
      rw [ho2] at ha'
      rcases inGrid2_six R (o := o) rfl rfl rfl with hg | hg
      · rw [hg] at ha'
        cases ha'
        have h' := h 3 (by decide)
        dsimp only at h'
        rw [eq _ (by decide) 3 (by decide), eq _ (by decide) 3 (by decide)] at h'
        revert h'
        decide
      · rw [hg] at ha'
        cases ha'
        have h' := h 1 (by decide)
        dsimp only at h'
        rw [eq _ (by decide) 1 (by decide), eq _ (by decide) 1 (by decide)] at h'
        revert h'
        decide
  have := h4 hne
  have q1 : (a.nfast : ℝ) = 8 := by rw [hn1]; rfl
  have q2 : (a.nslow : ℝ) = 8 := by rw [hn2]; rfl
  rw [q1, q2, show o.nloop = 1 from rfl] at this
  linarith

end FftMpi
