import Verif.TimeRuns
import Verif.DriverRun
import Verif.PropsFft3dBuf
import Verif.PropsFft2dMore
import Verif.PropsSpmd

/-!
# Lemmas on timing runs
-/

noncomputable section

namespace FftMpi

/-- In every state with `Q` the stage can be run. -/
def Able (e : Bool) (P : Nat) (size : Nat → Int) (ao : Nat) (Q : (Nat → LMem ℝ) → Prop) (p : Nat → List (Instr ℝ)) : Prop :=
  ∀ m, Q m → ∃ m', Step e P size ao p m m'

variable {e : Bool} {P : Nat} {size : Nat → Int} {ao : Nat} {Q : (Nat → LMem ℝ) → Prop}

theorem Able.nil : Able e P size ao Q (fun _ => []) := fun m _ => ⟨m, Step.nil m⟩

theorem Able.append (hQ : ∀ m m', SameDom P m m' → Q m → Q m') {p q : Nat → List (Instr ℝ)}
    (h : Able e P size ao Q p) (k : Able e P size ao Q q) : Able e P size ao Q (fun r => p r ++ q r) := by
  intro m hm
  obtain ⟨m1, s1⟩ := h m hm
  obtain ⟨m2, s2⟩ := k m1 (hQ _ _ s1.dom hm)
  exact ⟨m2, s1.append s2⟩

theorem Able.congr {p q : Nat → List (Instr ℝ)} (h : Able e P size ao Q p) (k : ∀ r < P, q r = p r) :
    Able e P size ao Q q := by
  intro m hm
  obtain ⟨m1, s1⟩ := h m hm
  exact ⟨m1, s1.congr k⟩

theorem Able.flatMap {β : Type} (hQ : ∀ m m', SameDom P m m' → Q m → Q m') {body : Nat → β → List (Instr ℝ)} (l : List β)
    (h : ∀ i ∈ l, Able e P size ao Q (fun r => body r i)) : Able e P size ao Q (fun r => l.flatMap (body r)) := by
  induction l with
  | nil => exact Able.nil
  | cons i l ih =>
    exact ((h i (by simp)).append hQ (ih fun j hj => h j (by simp [hj]))).congr fun r _ => by simp

theorem Able.passes (hQ : ∀ m m', SameDom P m m' → Q m → Q m') (n : Int) {body : Nat → Nat → List (Instr ℝ)}
    (h : ∀ i, Able e P size ao Q (fun r => body r i)) : Able e P size ao Q (fun r => passes n (body r)) :=
  Able.flatMap hQ _ fun i _ => h i

theorem Able.directions (hQ : ∀ m m', SameDom P m m' → Q m → Q m') {flag : Int} {call : Nat → Int → List (Instr ℝ)}
    (h : ∀ d, flag = d ∨ (flag = 0 ∧ (d = 1 ∨ d = -1)) → Able e P size ao Q (fun r => call r d)) :
    Able e P size ao Q (fun r => directions flag (call r)) := by
  unfold FftMpi.directions
  by_cases hf : flag = 0
  · simp only [hf, ne_eq, not_true_eq_false, if_false]
    exact (h 1 (.inr ⟨hf, .inl rfl⟩)).append hQ (h (-1) (.inr ⟨hf, .inr rfl⟩))
  · simp only [ne_eq, hf, not_false_eq_true, if_true]
    exact h flag (.inl rfl)

theorem Able.byMode (hQ : ∀ m m', SameDom P m m' → Q m → Q m') {mode : Nat} {call : Nat → Int → List (Instr ℝ)}
    (h : ∀ d, d = 1 ∨ (mode < 2 ∧ d = -1) → Able e P size ao Q (fun r => call r d)) :
    Able e P size ao Q (fun r => Driver.byMode mode (call r)) := by
  unfold Driver.byMode
  by_cases hm : mode < 2
  · simp only [if_pos hm]
    exact (h 1 (.inl rfl)).append hQ (h (-1) (.inr ⟨hm, rfl⟩))
  · simp only [if_neg hm]
    exact h 1 (.inl rfl)

theorem Able.ite (c : Prop) [Decidable c] {p q : Nat → List (Instr ℝ)} (h : c → Able e P size ao Q p)
    (k : ¬c → Able e P size ao Q q) : Able e P size ao Q (fun r => if c then p r else q r) := by
  by_cases hc : c
  · simp only [if_pos hc]; exact h hc
  · simp only [if_neg hc]; exact k hc

/-! ## Three dimensions -/

namespace Ready

variable {c : Create} {f : Nat → Fft3 ℝ} (R : Ready c f)
include R

/-- `only_1d_ffts` stays in bounds. -/
theorem only1d_any (e : Bool) (J : Nat → Nat → Junk) (flag : Int) {n : Nat} {m : Nat → LMem ℝ}
    (hd : ∀ r < c.P, accessible ((m r).ub n) 0 (2 * (f r).fftsize)) :
    ∃ m', Step e c.P (fsz f) n (fun r => (f r).only1d (J r) flag n) m m' := by
  obtain ⟨X, hX⟩ := Ready.some_holds R.fast_tiles 0 (fun r hr => R.size_fast hr) hd
  obtain ⟨m1, s1, _⟩ := R.fftFast_step e (fun r => J r 0) flag hX
  obtain ⟨Y, hY⟩ := Ready.some_holds R.mid_tiles 1 (fun r hr => R.size_mid hr)
    (fun r hr => accessible_congr ((s1.dom r hr).1 n) (hd r hr))
  obtain ⟨m2, s2, _⟩ := R.fftMid_step e (fun r => J r 1) flag hY
  have s12 := s1.append s2
  obtain ⟨Z, hZ⟩ := Ready.some_holds R.slow_tiles 2 (fun r hr => R.size_slow hr)
    (fun r hr => accessible_congr ((s12.dom r hr).1 n) (hd r hr))
  obtain ⟨m3, s3, _⟩ := R.fftSlow_step e (fun r => J r 2) flag hZ
  exact ⟨m3, (s12.append s3).congr fun r _ => rfl⟩

end Ready

/-- What `flag` must be for a run in bounds of the buffers that `setup` asks for. -/
def Covered (P : Nat) (a : Args3) (st : Settings) (flag : Int) : Prop :=
  flag = 1 ∨ st.exchange = 0 ∨ (a.permute = 0 ∧ ∀ r < P, a.ins r = a.outs r)

theorem Covered.fits {c : Create} {f : Nat → Fft3 ℝ} {flag : Int} (h : Covered c.P c.a c.st flag) :
    flag ≠ 1 → inoutSame c.P c.a = false → Ready.ExtraFits c f := by
  intro h1 hs hx
  rcases h with h | h | ⟨h0, h⟩
  · exact absurd h h1
  · exact absurd h hx
  · rw [inoutSame_of h0 h] at hs; cases hs

theorem Covered.both {P : Nat} {a : Args3} {st : Settings} {flag d : Int} (h : Covered P a st flag)
    (hd : flag = d ∨ (flag = 0 ∧ (d = 1 ∨ d = -1))) : Covered P a st d := by
  rcases hd with rfl | ⟨h0, hd⟩
  · exact h
  · rcases h with h | h
    · omega
    · exact .inr h

section
variable {a : Args3} {st : Settings} {f : Nat → Fft3 ℝ} {flag : Int} {n : Nat}

theorem SetUp3.able_compute (S : SetUp3 P a st f) (hc : Covered P a st flag) (J : Nat → Nat → Junk) (scaled remaponly : Bool) :
    Able e P (fsz f) n (Bufs P f n) (fun r => (f r).compute (J r) scaled remaponly flag n n) := by
  intro m hb
  obtain ⟨c, rfl, rfl, rfl, _, R⟩ := S.ready
  exact R.any flag hc.fits e J scaled remaponly n n hb hb

theorem SetUp3.able_only1d (S : SetUp3 P a st f) (J : Nat → Nat → Junk) (flag : Int) :
    Able e P (fsz f) n (Bufs P f n) (fun r => (f r).only1d (J r) flag n) := by
  intro m hb
  obtain ⟨c, rfl, rfl, rfl, _, R⟩ := S.ready
  exact R.only1d_any e J flag hb.data

theorem SetUp3.able_remaps (S : SetUp3 P a st f) (hc : Covered P a st flag) :
    Able e P (fsz f) n (Bufs P f n) (fun r => (f r).onlyRemaps flag n n) := by
  intro m hb
  obtain ⟨c, rfl, rfl, rfl, _, R⟩ := S.ready
  exact R.remaps_any e flag hc.fits hb hb

theorem SetUp3.able_one (S : SetUp3 P a st f) (hc : Covered P a st flag) (which : Int) :
    Able e P (fsz f) n (Bufs P f n) (fun r => (f r).onlyOneRemap flag which n n) := by
  intro m hb
  obtain ⟨c, rfl, rfl, rfl, _, R⟩ := S.ready
  exact R.one_any e flag which hc.fits hb hb

theorem SetUp3.able_trial (S : SetUp3 P a st f) (hc : Covered P a st flag) (J : Nat → Nat → Nat → Int → Nat → Junk)
    (scaled remaponly : Bool) (nper tflag : Int) :
    Able e P (fsz f) n (Bufs P f n) (fun r => (f r).trial (J r) scaled remaponly nper flag tflag n) := by
  have hQ : ∀ m m', SameDom P m m' → Bufs P f n m → Bufs P f n m' := fun _ _ h k => k.congr h
  refine Able.append hQ ?_ (Able.ite _ (fun _ => ?_) fun _ => Able.nil)
  · exact Able.passes hQ _ fun i => Able.directions hQ fun d hd => S.able_compute (hc.both hd) (fun r => J r 0 i d) _ _
  · refine Able.append hQ (Able.append hQ ?_ ?_) ?_
    · exact Able.passes hQ _ fun i => Able.directions hQ fun d _ => S.able_only1d (fun r => J r 1 i d) d
    · exact Able.passes hQ _ fun i => Able.directions hQ fun d hd => S.able_remaps (hc.both hd)
    · exact Able.flatMap hQ _ fun which _ => Able.passes hQ _ fun i => Able.directions hQ fun d hd =>
        S.able_one (hc.both hd) which

theorem SetUp3.able_zero (S : SetUp3 P a st f) :
    Able e P (fsz f) 0 (Bufs P f 0) (fun r => [.loc (Driver.onWork (Driver.fillZero (Driver.nfft3 (a.ins r))))]) := by
  intro m hb
  have hs : ∀ r < P, 0 ≤ (a.ins r).count ∧ (a.ins r).count ≤ fsz f r := by
    obtain ⟨c, rfl, rfl, _, _, R⟩ := S.ready
    exact fun r hr => ⟨count_nonneg _, R.size_ins hr⟩
  obtain ⟨m1, s1, _⟩ := Driver.fillStep e (size := fsz f) (m := m) hs hb.data (g := fun r => Driver.fillZero (Driver.nfft3 (a.ins r)))
    (tgt := fun _ _ => 0) (fun r hr => by rw [Driver.nfft3_eq (S.args.properIn r hr).1]; exact Driver.fillZero_fills _)
  exact ⟨m1, s1⟩

theorem SetUp3.able_timing (S : SetUp3 P a st f) (o : Driver.Opt3) (hc : o.mode < 2 → Covered P a st (-1))
    (J : Nat → Nat → Int → Nat → Junk) :
    Able e P (fsz f) 0 (Bufs P f 0) (fun r => o.timing (a.ins r) (f r) (J r)) := by
  have hQ : ∀ m m', SameDom P m m' → Bufs P f 0 m → Bufs P f 0 m' := fun _ _ h k => k.congr h
  have hc' : ∀ d, d = 1 ∨ (o.mode < 2 ∧ d = -1) → Covered P a st d := by
    rintro d (rfl | ⟨h, rfl⟩)
    · exact .inl rfl
    · exact hc h
  have one : ∀ which : Int, Able e P (fsz f) 0 (Bufs P f 0)
      (fun r => passes o.nloop (fun _ => Driver.byMode o.mode fun d => (f r).onlyOneRemap d which 0 0)) := fun which =>
    Able.passes hQ _ fun _ => Able.byMode hQ fun d hd => S.able_one (hc' d hd) which
  have z := S.able_zero (e := e)
  exact (((((((z.append hQ (Able.passes hQ _ fun i => Able.byMode hQ fun d _ => S.able_only1d (fun r => J r i d) d)).append hQ
    z).append hQ (Able.passes hQ _ fun _ => Able.byMode hQ fun d hd => S.able_remaps (hc' d hd))).append hQ z).append hQ
    (one 1)).append hQ (one 2)).append hQ (one 3)).append hQ (one 4)

theorem SetUp3.able_loop (S : SetUp3 P a st f) (mode : Nat) (hc : mode < 2 → Covered P a st (-1)) (rflag : Bool)
    (J J' : Nat → Nat → Nat → Junk) (k : Nat) :
    Able e P (fsz f) 0 (Bufs P f 0) (fun r => Driver.loop3 (f r) rflag mode (J r) (J' r) k) := by
  have hQ : ∀ m m', SameDom P m m' → Bufs P f 0 m → Bufs P f 0 m' := fun _ _ h k => k.congr h
  induction k with
  | zero => exact Able.nil
  | succ k ih =>
    exact ih.append hQ ((S.able_compute (.inl rfl) (fun r => J r k) true rflag).append hQ
      (Able.ite _ (fun h => S.able_compute (hc h) (fun r => J' r k) true rflag) fun _ => Able.nil))

end

/-! ## Two dimensions -/

section
variable {w : Int} {a : Args2} {st : Settings} {f : Nat → Fft2 ℝ} {n : Nat}

theorem SetUp2.able_compute (S : SetUp2 w P a st f) (J : Nat → Nat → Junk) (scaled remaponly : Bool) (flag : Int) :
    Able e P (fsz2 f) n (Bufs2 P f n) (fun r => (f r).compute (J r) scaled remaponly flag n n) := by
  intro m hb
  obtain ⟨c, rfl, rfl, rfl, rfl, _, R⟩ := S.ready
  exact R.any flag e J scaled remaponly n n hb hb

theorem SetUp2.able_only1d (S : SetUp2 w P a st f) (J : Nat → Nat → Junk) (flag : Int) :
    Able e P (fsz2 f) n (Bufs2 P f n) (fun r => (f r).only1d (J r) flag n) := by
  intro m hb
  obtain ⟨c, rfl, rfl, rfl, rfl, _, R⟩ := S.ready
  obtain ⟨X, hX⟩ := Ready2.some_holds R.fast_tiles (Or.inl rfl) (fun r hr => R.size_fast hr) hb.data
  obtain ⟨m1, s1, _⟩ := R.fftFast_step e (fun r => J r 0) flag hX
  obtain ⟨Y, hY⟩ := Ready2.some_holds R.slow_tiles (Or.inr rfl) (fun r hr => R.size_slow hr) (hb.congr s1.dom).data
  obtain ⟨m2, s2, _⟩ := R.fftSlow_step e (fun r => J r 1) flag hY
  exact ⟨m2, (s1.append s2).congr fun r _ => rfl⟩

theorem SetUp2.able_remaps (S : SetUp2 w P a st f) (flag : Int) :
    Able e P (fsz2 f) n (Bufs2 P f n) (fun r => (f r).onlyRemaps flag n n) := by
  intro m hb
  obtain ⟨c, rfl, rfl, rfl, rfl, _, R⟩ := S.ready
  exact R.remaps_any e flag hb hb

theorem SetUp2.able_one (S : SetUp2 w P a st f) (flag which : Int) :
    Able e P (fsz2 f) n (Bufs2 P f n) (fun r => (f r).onlyOneRemap flag which n n) := by
  intro m hb
  obtain ⟨c, rfl, rfl, rfl, rfl, _, R⟩ := S.ready
  exact R.one_any e flag which hb hb

theorem SetUp2.able_trial (S : SetUp2 w P a st f) (J : Nat → Nat → Nat → Int → Nat → Junk)
    (scaled remaponly : Bool) (nper flag tflag : Int) :
    Able e P (fsz2 f) n (Bufs2 P f n) (fun r => (f r).trial (J r) scaled remaponly nper flag tflag n) := by
  have hQ : ∀ m m', SameDom P m m' → Bufs2 P f n m → Bufs2 P f n m' := fun _ _ h k => k.congr h
  refine Able.append hQ ?_ (Able.ite _ (fun _ => ?_) fun _ => Able.nil)
  · exact Able.passes hQ _ fun i => Able.directions hQ fun d _ => S.able_compute (fun r => J r 0 i d) _ _ d
  · refine Able.append hQ (Able.append hQ ?_ ?_) ?_
    · exact Able.passes hQ _ fun i => Able.directions hQ fun d _ => S.able_only1d (fun r => J r 1 i d) d
    · exact Able.passes hQ _ fun i => Able.directions hQ fun d _ => S.able_remaps d
    · exact Able.flatMap hQ _ fun which _ => Able.passes hQ _ fun i => Able.directions hQ fun d _ => S.able_one d which

theorem SetUp2.able_zero (S : SetUp2 w P a st f) :
    Able e P (fsz2 f) 0 (Bufs2 P f 0) (fun r => [.loc (Driver.onWork (Driver.fillZero (Driver.nfft2 (a.ins r))))]) := by
  intro m hb
  have hs : ∀ r < P, 0 ≤ (a.ins r).count ∧ (a.ins r).count ≤ fsz2 f r := by
    obtain ⟨c, rfl, rfl, rfl, _, _, R⟩ := S.ready
    exact fun r hr => ⟨by rw [← Box2.lift_count]; exact count_nonneg _, R.size_ins hr⟩
  obtain ⟨m1, s1, _⟩ := Driver.fillStep e (size := fsz2 f) (m := m) hs hb.data (g := fun r => Driver.fillZero (Driver.nfft2 (a.ins r)))
    (tgt := fun _ _ => 0) (fun r hr => by rw [Driver.nfft2_eq (S.args.properIn r hr).1]; exact Driver.fillZero_fills _)
  exact ⟨m1, s1⟩

theorem SetUp2.able_timing (S : SetUp2 w P a st f) (o : Driver.Opt2) (J : Nat → Nat → Int → Nat → Junk) :
    Able e P (fsz2 f) 0 (Bufs2 P f 0) (fun r => o.timing (a.ins r) (f r) (J r)) := by
  have hQ : ∀ m m', SameDom P m m' → Bufs2 P f 0 m → Bufs2 P f 0 m' := fun _ _ h k => k.congr h
  have one : ∀ which : Int, Able e P (fsz2 f) 0 (Bufs2 P f 0)
      (fun r => passes o.nloop (fun _ => Driver.byMode o.mode fun d => (f r).onlyOneRemap d which 0 0)) := fun which =>
    Able.passes hQ _ fun _ => Able.byMode hQ fun d _ => S.able_one d which
  have z := S.able_zero (e := e)
  exact ((((((z.append hQ (Able.passes hQ _ fun i => Able.byMode hQ fun d _ => S.able_only1d (fun r => J r i d) d)).append hQ
    z).append hQ (Able.passes hQ _ fun _ => Able.byMode hQ fun d _ => S.able_remaps d)).append hQ z).append hQ
    (one 1)).append hQ (one 2)).append hQ (one 3)

theorem SetUp2.able_loop (S : SetUp2 w P a st f) (mode : Nat) (rflag : Bool) (J J' : Nat → Nat → Nat → Junk) (k : Nat) :
    Able e P (fsz2 f) 0 (Bufs2 P f 0) (fun r => Driver.loop2 (f r) rflag mode (J r) (J' r) k) := by
  have hQ : ∀ m m', SameDom P m m' → Bufs2 P f 0 m → Bufs2 P f 0 m' := fun _ _ h k => k.congr h
  induction k with
  | zero => exact Able.nil
  | succ k ih =>
    exact ih.append hQ ((S.able_compute (fun r => J r k) true rflag 1).append hQ
      (Able.ite _ (fun _ => S.able_compute (fun r => J' r k) true rflag (-1)) fun _ => Able.nil))

end

/-! ## What `setup` depends on -/

theorem Returns.ends {E ρ : Type} {P : Nat} {p : Nat → Spmd E ρ} {x : Nat → ρ} (h : Returns P p x) :
    ∃ n t, RunC P n (startC p) t ∧ ∀ r < P, (t r).prog = .ret (x r) := by
  obtain ⟨⟨N, hN⟩, h2⟩ := h
  have key : ∀ d n t, N - n ≤ d → RunC P n (startC p) t → ∃ n t, RunC P n (startC p) t ∧ ∀ r < P, (t r).prog = .ret (x r) := by
    intro d
    induction d with
    | zero =>
      intro n t hd R
      rcases (h2 n t R).1 with h | ⟨r, hr, h⟩
      · exact ⟨n, t, R, h⟩
      · obtain ⟨u, hu⟩ := Option.isSome_iff_exists.mp h
        have := hN _ _ (R.snoc hr hu)
        omega
    | succ d ih =>
      intro n t hd R
      rcases (h2 n t R).1 with h | ⟨r, hr, h⟩
      · exact ⟨n, t, R, h⟩
      · obtain ⟨u, hu⟩ := Option.isSome_iff_exists.mp h
        exact ih (n + 1) u (by omega) (R.snoc hr hu)
  exact key N 0 _ (by omega) (.refl _)

theorem Returns.unique {E ρ : Type} {P : Nat} {p : Nat → Spmd E ρ} {x y : Nat → ρ} (h : Returns P p x) (k : Returns P p y) :
    ∀ r < P, x r = y r := by
  obtain ⟨n, t, R, ht⟩ := h.ends
  intro r hr
  exact ((k.2 n t R).2 r hr).2.1 _ (ht r hr)

/-- `setup` depends on the rounding only through the processor grids. -/
theorem Here3.setup_fp (h : Here3) (fp : ℝ → ℝ) (hg : ({ h with fp } : Here3).grids = h.grids) :
    Here3.setup (α := ℝ) { h with fp } = h.setup := by
  unfold Here3.setup
  rw [hg]
  rfl

/-- What `setup` makes depends on the boxes of the `P` ranks and the processor grids only. -/
theorem SetUp3.other {P : Nat} {a a' : Args3} {st : Settings} {f : Nat → Fft3 ℝ} (S : SetUp3 P a st f) (hv : a'.Valid P)
    (h1 : a'.nfast = a.nfast) (h2 : a'.nmid = a.nmid) (h3 : a'.nslow = a.nslow) (h4 : a'.permute = a.permute) 
    (h5 : setupGrids P a' st.exchange = setupGrids P a st.exchange)
    (h : ∀ r < P, a'.ins r = a.ins r ∧ a'.outs r = a.outs r) : SetUp3 P a' st f := by
  obtain ⟨f', S'⟩ := setUp3_exists hv S.settings
  have A := (Does.setup a st P _ S.result).returns
  have B := ((Does.setup a' st P _ S'.result).congr (q := fun r => (a.here st P r).setup) (fun r hr => by
    have e : a'.here st P r = { a.here st P r with fp := a'.fp } := by
      unfold Args3.here
      rw [h1, h2, h3, h4, (h r hr).1, (h r hr).2]
    rw [e]
    refine (Here3.setup_fp (a.here st P r) a'.fp ?_).symm
    rw [← e]
    exact h5) fun _ _ => rfl).returns
  have e := A.unique B
  refine ⟨hv, S.settings, fun r hr => ?_⟩
  rw [S'.result r hr]
  exact congrArg some (e r hr).symm

end FftMpi
