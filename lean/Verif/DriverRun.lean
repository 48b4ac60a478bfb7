import Verif.DriverLoops
import Verif.PropsFft3dUse
import Verif.PropsFft2dUse

/-!
# The loop of the test programs

What `initialize`, the timed loop and `validate` do to the array, place by place.
-/

noncomputable section

namespace FftMpi

namespace Driver

/-- The first `2*cnt r` numbers of array 0 are given by `v r`. -/
def Vals (P : Nat) (cnt : Nat → Int) (v : Nat → Int → ℝ) (m : Nat → LMem ℝ) : Prop :=
  ∀ r < P, ∀ x, 0 ≤ x → x < 2 * cnt r → (m r).ub 0 x = some (v r x)

/-- What a pass of the loop multiplies the number at place `x` by: `scale_ffts` scales `outsize` complex
numbers, also after the backward transform. -/
def passFactor (N : ℝ) (rflag : Bool) (out : Int) (x : Int) : ℝ := if rflag ∨ x / 2 < out then 1 else N

theorem Vals.congr {P : Nat} {cnt : Nat → Int} {v w : Nat → Int → ℝ} {m : Nat → LMem ℝ} (h : Vals P cnt v m)
    (hv : ∀ r < P, ∀ x, 0 ≤ x → x < 2 * cnt r → v r x = w r x) : Vals P cnt w m := by
  intro r hr x h0 h1
  rw [h r hr x h0 h1, hv r hr x h0 h1]

/-! ## Three dimensions -/

theorem pass3 {P : Nat} {a : Args3} {st : Settings} {f : Nat → Fft3 ℝ} (S : SetUp3 P a st f) (e : Bool)
    (J J' : Nat → Nat → Junk) (rflag : Bool) {m : Nat → LMem ℝ} {v : Nat → Int → ℝ}
    (hv : Vals P (fun r => (a.ins r).count) v m) (hb : Bufs P f 0 m) (hr : RoomBack P a st m) :
    ∃ m', Step e P (fsz f) 0 (fun r => (f r).compute (J r) true rflag 1 0 0 ++
        (f r).compute (J' r) true rflag (-1) 0 0) m m' ∧
      Vals P (fun r => (a.ins r).count) (fun r x => passFactor a.N rflag (a.outs r).count x * v r x) m' := by
  cases rflag with
  | true =>
    obtain ⟨c, rfl, rfl, rfl, _, R⟩ := S.ready
    obtain ⟨X, hX⟩ := Ready.some_holds R.ins_tiles 0 (fun r hr => R.size_ins hr) hb.data
    obtain ⟨m1, s1, h1⟩ := R.compute_fwd e J true true (flag := 1) (Or.inl rfl) (ai := 0) (ao := 0)
      (Or.inl rfl) hX hb
    have h1' : Holds c.P c.a.permute c.a.outs 0 X m1 := by simpa [Ready.effect] using h1
    obtain ⟨m2, s2, h2⟩ := R.back e J' true true h1' (hb.congr s1.dom) (hr.congr s1.dom)
    refine ⟨m2, s1.append s2, ?_⟩
    have h2' : Holds c.P 0 c.a.ins 0 X m2 := by simpa [Ready.effect] using h2
    intro r hr x h0 h1
    rw [(h2' r hr).eq (hX r hr) h0 h1, hv r hr x h0 h1]
    simp [passFactor]
  | false =>
    have hN : (a.N : ℂ) ≠ 0 := by exact_mod_cast S.args.N_pos.ne'
    obtain ⟨X, hX⟩ : ∃ X, Holds P 0 a.ins 0 X m := by
      obtain ⟨c, rfl, rfl, rfl, _, R⟩ := S.ready
      exact Ready.some_holds R.ins_tiles 0 (fun r hr => R.size_ins hr) hb.data
    obtain ⟨m', s, h⟩ := round_trip S e J J' true hX hb hr
    refine ⟨m', s, ?_⟩
    simp only [if_true] at h
    intro r hr x h0 h1
    obtain ⟨i, j, k, q, hh, hq, rfl⟩ := addr_of_lt (p := 0) h0 h1
    have e1 := h r hr i j k hh
    have e2 := hX r hr i j k hh
    have e3 := hv r hr _ h0 h1
    simp only [boxSize_eq_count (S.args.properOut r hr)] at e1
    have hd : addr3 0 (a.ins r) 2 i j k q / 2 = addr3 0 (a.ins r) 1 i j k 0 := by
      rw [addr3_two]
      omega
    unfold passFactor
    simp only [Bool.false_eq_true, false_or, hd]
    have hc : ((1 / a.N : ℝ) : ℂ) * ((a.N : ℂ) * X i j k) = X i j k := by
      push_cast
      field_simp
    split_ifs at e1 ⊢ with hlt
    · rw [hc] at e1
      rw [one_mul, ← e3]
      rcases hq with rfl | rfl
      · rw [e1.1, e2.1]
      · rw [e1.2, e2.2]
    · rcases hq with rfl | rfl
      · rw [e2.1] at e3
        rw [e1.1, ← Option.some.inj e3]
        simp
      · rw [e2.2] at e3
        rw [e1.2, ← Option.some.inj e3]
        simp

theorem loop3_ok {P : Nat} {a : Args3} {st : Settings} {f : Nat → Fft3 ℝ} (S : SetUp3 P a st f) (e : Bool)
    (J J' : Nat → Nat → Nat → Junk) (rflag : Bool) {mode : Nat} (hm : mode < 2) {m : Nat → LMem ℝ} {v : Nat → Int → ℝ}
    (hv : Vals P (fun r => (a.ins r).count) v m) (hb : Bufs P f 0 m) (hr : RoomBack P a st m) (n : Nat) :
    ∃ m', Step e P (fsz f) 0 (fun r => loop3 (f r) rflag mode (J r) (J' r) n) m m' ∧
      Vals P (fun r => (a.ins r).count) (fun r x => passFactor a.N rflag (a.outs r).count x ^ n * v r x) m' := by
  induction n with
  | zero => exact ⟨m, Step.nil m, hv.congr fun r _ x _ _ => by simp⟩
  | succ n ih =>
    obtain ⟨m1, s1, h1⟩ := ih
    obtain ⟨m2, s2, h2⟩ := pass3 S e (fun r => J r n) (fun r => J' r n) rflag h1 (hb.congr s1.dom) (hr.congr s1.dom)
    refine ⟨m2, (s1.append s2).congr fun r _ => ?_, h2.congr fun r _ x _ _ => ?_⟩
    · simp only [loop3, if_pos hm]
    · rw [pow_succ]; ring

theorem loop3_fwd {P : Nat} {a : Args3} {st : Settings} {f : Nat → Fft3 ℝ} (S : SetUp3 P a st f) (e : Bool)
    (J J' : Nat → Nat → Nat → Junk) (rflag : Bool) {mode : Nat} (hm : ¬mode < 2) {m : Nat → LMem ℝ}
    (hb : Bufs P f 0 m) (n : Nat) :
    ∃ m', Step e P (fsz f) 0 (fun r => loop3 (f r) rflag mode (J r) (J' r) n) m m' := by
  induction n with
  | zero => exact ⟨m, Step.nil m⟩
  | succ n ih =>
    obtain ⟨m1, s1⟩ := ih
    obtain ⟨c, rfl, rfl, rfl, _, R⟩ := S.ready
    obtain ⟨m2, s2⟩ := R.any 1 (fun h => absurd rfl h) e (fun r => J r n) true rflag 0 0 (hb.congr s1.dom)
      (hb.congr s1.dom)
    refine ⟨m2, (s1.append s2).congr fun r _ => ?_⟩
    simp only [loop3, if_neg hm, List.append_nil]

/-- What `initialize` stores at place `x`. -/
def Opt3.start (rnd : ℝ → ℝ) (o : Opt3) (me : Nat) (b : Box3) : Int → ℝ :=
  match o.iflag with
  | .zero => fun _ => 0
  | .step => pairTgt fun m => ((point3 b m).map (stepAt3 o)).getD 0
  | .index => pairTgt fun m => ((point3 b m).map indexAt3).getD 0
  | .random n => randTgt rnd (n + me)

/-- The seed of a rank is an `int` and not negative. -/
def SeedOk (i : Init) (me : Nat) : Prop := ∀ n, i = .random n → 0 ≤ n + (me : Int) ∧ n + (me : Int) ≤ 2147483647

theorem Opt3.initialize_fills (rnd : ℝ → ℝ) {o : Opt3} {me : Nat} {b : Box3} (hb : b.Proper) (hs : SeedOk o.iflag me) :
    Fills (nfft3 b) (o.initialize rnd me b) (o.start rnd me b) := by
  have hpt : ∀ (val : Int × Int × Int → ℝ) (m : Int), 0 ≤ m → m < nfft3 b →
      ∃ g, point3 b m = some g ∧ val g = ((point3 b m).map val).getD 0 := by
    intro val m h0 h1
    obtain ⟨i, j, k, _, _, hp⟩ := point3_ok hb h0 h1
    exact ⟨_, hp, by rw [hp]; rfl⟩
  rcases hi : o.iflag with _ | _ | _ | n
  · have e1 : o.start rnd me b = fun _ => 0 := by unfold Opt3.start; rw [hi]
    rw [e1]
    intro w hw
    unfold Opt3.initialize
    rw [hi]
    exact fillZero_fills _ w hw
  · have e1 : o.start rnd me b = pairTgt fun m => ((point3 b m).map (stepAt3 o)).getD 0 := by
      unfold Opt3.start; rw [hi]
    rw [e1]
    intro w hw
    unfold Opt3.initialize
    rw [hi]
    exact fillAt_fills (hpt _) w hw
  · have e1 : o.start rnd me b = pairTgt fun m => ((point3 b m).map indexAt3).getD 0 := by
      unfold Opt3.start; rw [hi]
    rw [e1]
    intro w hw
    unfold Opt3.initialize
    rw [hi]
    exact fillAt_fills (hpt _) w hw
  · have e1 : o.start rnd me b = randTgt rnd (n + me) := by unfold Opt3.start; rw [hi]
    rw [e1]
    intro w hw
    unfold Opt3.initialize
    rw [hi]
    exact fillRandom_fills rnd (hs n hi).1 (hs n hi).2 _ w hw

theorem Opt3.validate_checks (rnd : ℝ → ℝ) {o : Opt3} {me : Nat} {b : Box3} (hb : b.Proper) (hs : SeedOk o.iflag me) :
    Checks (nfft3 b) (o.validate rnd me b) (o.start rnd me b) := by
  have hpt : ∀ (val : Int × Int × Int → ℝ) (m : Int), 0 ≤ m → m < nfft3 b →
      ∃ g, point3 b m = some g ∧ val g = ((point3 b m).map val).getD 0 := by
    intro val m h0 h1
    obtain ⟨i, j, k, _, _, hp⟩ := point3_ok hb h0 h1
    exact ⟨_, hp, by rw [hp]; rfl⟩
  rcases hi : o.iflag with _ | _ | _ | n
  · have e1 : o.start rnd me b = fun _ => 0 := by unfold Opt3.start; rw [hi]
    rw [e1]
    intro w v hw
    unfold Opt3.validate
    rw [hi]
    exact checkZero_checks _ w v hw
  · have e1 : o.start rnd me b = pairTgt fun m => ((point3 b m).map (stepAt3 o)).getD 0 := by
      unfold Opt3.start; rw [hi]
    rw [e1]
    intro w v hw
    unfold Opt3.validate
    rw [hi]
    exact checkAt_checks (hpt _) w v hw
  · have e1 : o.start rnd me b = pairTgt fun m => ((point3 b m).map indexAt3).getD 0 := by
      unfold Opt3.start; rw [hi]
    rw [e1]
    intro w v hw
    unfold Opt3.validate
    rw [hi]
    exact checkAt_checks (hpt _) w v hw
  · have e1 : o.start rnd me b = randTgt rnd (n + me) := by unfold Opt3.start; rw [hi]
    rw [e1]
    intro w v hw
    unfold Opt3.validate
    rw [hi]
    exact checkRandom_checks rnd (hs n hi).1 (hs n hi).2 _ w v hw

/-- Local code that fills the array. -/
theorem fillStep (e : Bool) {P : Nat} {size : Nat → Int} {m : Nat → LMem ℝ} {cnt : Nat → Int}
    (hc : ∀ r < P, 0 ≤ cnt r ∧ cnt r ≤ size r) (hd : ∀ r < P, accessible ((m r).ub 0) 0 (2 * size r))
    {g : Nat → Mem ℝ → Option (Mem ℝ)} {tgt : Nat → Int → ℝ} (hg : ∀ r < P, Fills (cnt r) (g r) (tgt r)) :
    ∃ m', Step e P size 0 (fun r => [.loc (onWork (g r))]) m m' ∧ Vals P cnt tgt m' := by
  obtain ⟨m', s, hm⟩ := locStep e (P := P) (size := size) (ao := 0) (m := m) (fun r => onWork (g r))
    (fun r x => if 0 ≤ x ∧ x < 2 * cnt r then some (tgt r x) else (m r).ub 0 x) (by
      intro r hr
      unfold onWork
      rw [hg r hr _ (accessible_mono (hd r hr) (by have := hc r hr; omega))]
      rfl) (by
      intro r hr x
      split_ifs with h
      · have := hc r hr
        have := hd r hr x (by omega) (by omega)
        simp [this]
      · rfl) (by
      intro r hr x hx
      have := hc r hr
      rw [if_neg (by omega)])
  refine ⟨m', s, ?_⟩
  intro r hr x h0 h1
  rw [hm r hr]
  dsimp only
  rw [if_pos ⟨h0, h1⟩]

/-! ## Two dimensions -/

theorem pass2 {w : Int} {P : Nat} {a : Args2} {st : Settings} {f : Nat → Fft2 ℝ} (S : SetUp2 w P a st f) (e : Bool)
    (J J' : Nat → Nat → Junk) (rflag : Bool) {m : Nat → LMem ℝ} {v : Nat → Int → ℝ}
    (hv : Vals P (fun r => (a.ins r).count) v m) (hb : Bufs2 P f 0 m) :
    ∃ m', Step e P (fsz2 f) 0 (fun r => (f r).compute (J r) true rflag 1 0 0 ++
        (f r).compute (J' r) true rflag (-1) 0 0) m m' ∧
      Vals P (fun r => (a.ins r).count) (fun r x => passFactor a.N rflag (a.outs r).count x * v r x) m' := by
  cases rflag with
  | true =>
    obtain ⟨c, rfl, rfl, rfl, rfl, _, R⟩ := S.ready
    obtain ⟨X, hX⟩ := Ready2.some_holds R.ins_tiles (Or.inl rfl) (fun r hr => R.size_ins hr) hb.data
    obtain ⟨m1, s1, h1⟩ := R.compute_fwd e J true true (flag := 1) (Or.inl rfl) (ai := 0) (ao := 0)
      (Or.inl rfl) hX hb
    have h1' : Holds2 c.P c.a.permute c.a.outs 0 X m1 := by simpa [Ready2.effect] using h1
    obtain ⟨m2, s2, h2⟩ := R.compute_back e J' true true h1' (hb.congr s1.dom)
    refine ⟨m2, s1.append s2, ?_⟩
    have h2' : Holds2 c.P 0 c.a.ins 0 X m2 := by simpa [Ready2.effect] using h2
    intro r hr x h0 h1
    rw [(h2' r hr).eq (Or.inl rfl) (hX r hr) h0 h1, hv r hr x h0 h1]
    simp [passFactor]
  | false =>
    have hN : (a.N : ℂ) ≠ 0 := by exact_mod_cast S.args.N_pos.ne'
    obtain ⟨X, hX⟩ : ∃ X, Holds2 P 0 a.ins 0 X m := by
      obtain ⟨c, rfl, rfl, rfl, rfl, _, R⟩ := S.ready
      exact Ready2.some_holds R.ins_tiles (Or.inl rfl) (fun r hr => R.size_ins hr) hb.data
    obtain ⟨m', s, h⟩ := round_trip2 S e J J' true hX hb
    refine ⟨m', s, ?_⟩
    simp only [if_true] at h
    intro r hr x h0 h1
    obtain ⟨i, j, k, q, hh, hq, he⟩ := addr_of_lt (p := 0) (b := (a.ins r).lift) h0 (by rw [Box2.lift_count]; exact h1)
    obtain ⟨hh', rfl⟩ := Box2.lift_has.mp hh
    rw [addr2_lift (Or.inl rfl)] at he
    subst he
    have e1 := h r hr i j hh'
    have e2 := hX r hr i j hh'
    have e3 := hv r hr _ h0 h1
    simp only [boxSize2_eq_count (S.args.properOut r hr)] at e1
    have hd : addr2 0 (a.ins r) 2 i j q / 2 = addr2 0 (a.ins r) 1 i j 0 := by
      rw [← addr2_lift (Or.inl rfl), ← addr2_lift (Or.inl rfl), addr3_two]
      omega
    unfold passFactor
    simp only [Bool.false_eq_true, false_or, hd]
    have hc : ((1 / a.N : ℝ) : ℂ) * ((a.N : ℂ) * X i j) = X i j := by
      push_cast
      field_simp
    split_ifs at e1 ⊢ with hlt
    · rw [hc] at e1
      rw [one_mul, ← e3]
      rcases hq with rfl | rfl
      · rw [e1.1, e2.1]
      · rw [e1.2, e2.2]
    · rcases hq with rfl | rfl
      · rw [e2.1] at e3
        rw [e1.1, ← Option.some.inj e3]
        simp
      · rw [e2.2] at e3
        rw [e1.2, ← Option.some.inj e3]
        simp

theorem loop2_ok {w : Int} {P : Nat} {a : Args2} {st : Settings} {f : Nat → Fft2 ℝ} (S : SetUp2 w P a st f) (e : Bool)
    (J J' : Nat → Nat → Nat → Junk) (rflag : Bool) {mode : Nat} (hm : mode < 2) {m : Nat → LMem ℝ} {v : Nat → Int → ℝ}
    (hv : Vals P (fun r => (a.ins r).count) v m) (hb : Bufs2 P f 0 m) (n : Nat) :
    ∃ m', Step e P (fsz2 f) 0 (fun r => loop2 (f r) rflag mode (J r) (J' r) n) m m' ∧
      Vals P (fun r => (a.ins r).count) (fun r x => passFactor a.N rflag (a.outs r).count x ^ n * v r x) m' := by
  induction n with
  | zero => exact ⟨m, Step.nil m, hv.congr fun r _ x _ _ => by simp⟩
  | succ n ih =>
    obtain ⟨m1, s1, h1⟩ := ih
    obtain ⟨m2, s2, h2⟩ := pass2 S e (fun r => J r n) (fun r => J' r n) rflag h1 (hb.congr s1.dom)
    refine ⟨m2, (s1.append s2).congr fun r _ => ?_, h2.congr fun r _ x _ _ => ?_⟩
    · simp only [loop2, if_pos hm]
    · rw [pow_succ]; ring

theorem loop2_fwd {w : Int} {P : Nat} {a : Args2} {st : Settings} {f : Nat → Fft2 ℝ} (S : SetUp2 w P a st f) (e : Bool)
    (J J' : Nat → Nat → Nat → Junk) (rflag : Bool) {mode : Nat} (hm : ¬mode < 2) {m : Nat → LMem ℝ}
    (hb : Bufs2 P f 0 m) (n : Nat) :
    ∃ m', Step e P (fsz2 f) 0 (fun r => loop2 (f r) rflag mode (J r) (J' r) n) m m' := by
  induction n with
  | zero => exact ⟨m, Step.nil m⟩
  | succ n ih =>
    obtain ⟨m1, s1⟩ := ih
    obtain ⟨c, rfl, rfl, rfl, rfl, _, R⟩ := S.ready
    obtain ⟨m2, s2⟩ := R.any 1 e (fun r => J r n) true rflag 0 0 (hb.congr s1.dom) (hb.congr s1.dom)
    refine ⟨m2, (s1.append s2).congr fun r _ => ?_⟩
    simp only [loop2, if_neg hm, List.append_nil]

/-- What `initialize` stores at place `x`. -/
def Opt2.start (rnd : ℝ → ℝ) (o : Opt2) (me : Nat) (b : Box2) : Int → ℝ :=
  match o.iflag with
  | .zero => fun _ => 0
  | .step => pairTgt fun m => ((point2 b m).map (stepAt2 o)).getD 0
  | .index => pairTgt fun m => ((point2 b m).map indexAt2).getD 0
  | .random n => randTgt rnd (n + me)

theorem Opt2.initialize_fills (rnd : ℝ → ℝ) {o : Opt2} {me : Nat} {b : Box2} (hb : b.Proper) (hs : SeedOk o.iflag me) :
    Fills (nfft2 b) (o.initialize rnd me b) (o.start rnd me b) := by
  have hpt : ∀ (val : Int × Int → ℝ) (m : Int), 0 ≤ m → m < nfft2 b →
      ∃ g, point2 b m = some g ∧ val g = ((point2 b m).map val).getD 0 := by
    intro val m h0 h1
    obtain ⟨i, j, _, _, hp⟩ := point2_ok hb h0 h1
    exact ⟨_, hp, by rw [hp]; rfl⟩
  rcases hi : o.iflag with _ | _ | _ | n
  · have e1 : o.start rnd me b = fun _ => 0 := by unfold Opt2.start; rw [hi]
    rw [e1]
    intro w hw
    unfold Opt2.initialize
    rw [hi]
    exact fillZero_fills _ w hw
  · have e1 : o.start rnd me b = pairTgt fun m => ((point2 b m).map (stepAt2 o)).getD 0 := by
      unfold Opt2.start; rw [hi]
    rw [e1]
    intro w hw
    unfold Opt2.initialize
    rw [hi]
    exact fillAt_fills (hpt _) w hw
  · have e1 : o.start rnd me b = pairTgt fun m => ((point2 b m).map indexAt2).getD 0 := by
      unfold Opt2.start; rw [hi]
    rw [e1]
    intro w hw
    unfold Opt2.initialize
    rw [hi]
    exact fillAt_fills (hpt _) w hw
  · have e1 : o.start rnd me b = randTgt rnd (n + me) := by unfold Opt2.start; rw [hi]
    rw [e1]
    intro w hw
    unfold Opt2.initialize
    rw [hi]
    exact fillRandom_fills rnd (hs n hi).1 (hs n hi).2 _ w hw

theorem Opt2.validate_checks (rnd : ℝ → ℝ) {o : Opt2} {me : Nat} {b : Box2} (hb : b.Proper) (hs : SeedOk o.iflag me) :
    Checks (nfft2 b) (o.validate rnd me b) (o.start rnd me b) := by
  have hpt : ∀ (val : Int × Int → ℝ) (m : Int), 0 ≤ m → m < nfft2 b →
      ∃ g, point2 b m = some g ∧ val g = ((point2 b m).map val).getD 0 := by
    intro val m h0 h1
    obtain ⟨i, j, _, _, hp⟩ := point2_ok hb h0 h1
    exact ⟨_, hp, by rw [hp]; rfl⟩
  rcases hi : o.iflag with _ | _ | _ | n
  · have e1 : o.start rnd me b = fun _ => 0 := by unfold Opt2.start; rw [hi]
    rw [e1]
    intro w v hw
    unfold Opt2.validate
    rw [hi]
    exact checkZero_checks _ w v hw
  · have e1 : o.start rnd me b = pairTgt fun m => ((point2 b m).map (stepAt2 o)).getD 0 := by
      unfold Opt2.start; rw [hi]
    rw [e1]
    intro w v hw
    unfold Opt2.validate
    rw [hi]
    exact checkAt_checks (hpt _) w v hw
  · have e1 : o.start rnd me b = pairTgt fun m => ((point2 b m).map indexAt2).getD 0 := by
      unfold Opt2.start; rw [hi]
    rw [e1]
    intro w v hw
    unfold Opt2.validate
    rw [hi]
    exact checkAt_checks (hpt _) w v hw
  · have e1 : o.start rnd me b = randTgt rnd (n + me) := by unfold Opt2.start; rw [hi]
    rw [e1]
    intro w v hw
    unfold Opt2.validate
    rw [hi]
    exact checkRandom_checks rnd (hs n hi).1 (hs n hi).2 _ w v hw

/-! ## The maximum over the ranks -/

/-- `epsmax` is the maximum. -/
theorem epsmax_ok {P : Nat} (hP : 0 < P) {eps : Nat → Option ℝ} {v : Nat → ℝ} (h : ∀ r < P, eps r = some (v r)) :
    ∃ x, epsmax P eps = some x ∧ (∀ r < P, v r ≤ x) ∧ ∃ r < P, x = v r := by
  induction P with
  | zero => omega
  | succ P ih =>
    rcases P with _ | P
    · exact ⟨v 0, h 0 (by omega), fun r hr => by rw [show r = 0 by omega], 0, by omega, rfl⟩
    · obtain ⟨x, h1, h2, r0, hr0, h3⟩ := ih (by omega) fun r hr => h r (by omega)
      refine ⟨max x (v (P + 1)), by simp [epsmax, h1, h (P + 1) (by omega)], ?_, ?_⟩
      · intro r hr
        by_cases hrP : r = P + 1
        · rw [hrP]; exact le_max_right _ _
        · exact (h2 r (by omega)).trans (le_max_left _ _)
      · rcases max_choice x (v (P + 1)) with hm | hm
        · exact ⟨r0, by omega, by rw [hm, h3]⟩
        · exact ⟨P + 1, by omega, hm⟩

end Driver

end FftMpi
