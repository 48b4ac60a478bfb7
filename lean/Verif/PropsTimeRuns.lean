import Verif.TimeRunsBad
import Verif.PropsDriverRun
import Verif.PropsSpmdTune

/-!
# C74: timing runs end and stay within their arrays

`tune_trial` (called by `tune`) and `timing` (of the test programs) run the FFT and its parts many times on one array.
-/

noncomputable section

namespace FftMpi

/-! ## Trials -/

/-- **C74 (FFT3d::tune_trial).**  With an array of `fftsize` complex numbers, whatever it contains, and buffers of the sizes
that `setup` returned, a trial of any number of passes ends in every schedule, and changes nothing but this array.

Missing: backward or both directions with bricks and different layouts.  There it is false, `C74_tune_false`. -/
theorem C74_trial_partial {P : Nat} {a : Args3} {st : Settings} {f : Nat → Fft3 ℝ} (S : SetUp3 P a st f) {flag : Int}
    (hc : flag = 1 ∨ st.exchange = 0 ∨ (a.permute = 0 ∧ ∀ r < P, a.ins r = a.outs r)) (e : Bool)
    (J : Nat → Nat → Nat → Int → Nat → Junk) (scaled remaponly : Bool) (nper tflag : Int) {n : Nat} {m : Nat → LMem ℝ}
    (hb : Bufs P f n m) :
    ∃ m', Terminates e P (fun r => (f r).trial (J r) scaled remaponly nper flag tflag n) m m' ∧ Kept P f n m m' := by
  obtain ⟨m', s⟩ := S.able_trial (e := e) (n := n) (flag := flag) hc J scaled remaponly nper tflag m hb
  exact ⟨m', s.ok.terminates, s.kept⟩

/-- **C74 (FFT2d::tune_trial).**  In 2d in all directions. -/
theorem C74_trial_2d {w : Int} {P : Nat} {a : Args2} {st : Settings} {f : Nat → Fft2 ℝ} (S : SetUp2 w P a st f) (e : Bool)
    (J : Nat → Nat → Nat → Int → Nat → Junk) (scaled remaponly : Bool) (nper flag tflag : Int) {n : Nat} {m : Nat → LMem ℝ}
    (hb : Bufs2 P f n m) :
    ∃ m', Terminates e P (fun r => (f r).trial (J r) scaled remaponly nper flag tflag n) m m' ∧
      ∀ r < P, (∀ n', n' ≠ n → (m' r).ub n' = (m r).ub n') ∧
        ∀ x, (x < 0 ∨ 2 * (f r).fftsize ≤ x) → (m' r).ub n x = (m r).ub n x := by
  obtain ⟨m', s⟩ := S.able_trial (e := e) (n := n) J scaled remaponly nper flag tflag m hb
  exact ⟨m', s.ok.terminates, fun r hr => ⟨s.other r hr, s.frame r hr⟩⟩

example (st : Settings) (hst : st.Valid) : ∃ f m, SetUp3 2 (demo3 1) st f ∧ Bufs 2 f 0 m := by
  obtain ⟨f, S⟩ := setUp3_exists (demo3_valid 1 (by decide)) hst
  obtain ⟨m, h⟩ := S.mem_in fun i j k => i + 2 * j + 4 * k
  exact ⟨f, m, S, (h 0).2⟩

example (st : Settings) (hst : st.Valid2 1) : ∃ f m, SetUp2 1 2 (plane2 1) st f ∧ Bufs2 2 f 0 m := by
  obtain ⟨f, S⟩ := setUp2_exists (plane2_valid 1 (by decide)) hst
  obtain ⟨m, h⟩ := S.mem_in fun i j => i + 2 * j
  exact ⟨f, m, S, (h 0).2⟩

/-! ## `tune` -/

/-- All ranks make the same number of passes in a trial, and the same kinds of runs. -/
theorem tune_same_count {P : Nat} {fsz : Nat → Settings → Int} {clk : Nat → Clock} {t : TuneArgs} {s r : Nat → TuneSt}
    (h : ∀ a < P, tune (fsz a) (clk 0) (clk a) false t (s a) = some (.ok (r a)))
    (hbig : ∀ a < P, ∀ k, ((clk a).run k).tfft < tuneBIG) {k : Nat} {q : Nat → Trial}
    (hq : ∀ a < P, (r a).runs[k]? = some (q a)) :
    (∀ a < P, ∀ b < P, (q a).niter = (q b).niter ∧ (q a).tflag = (q b).tflag) ∧
    ∀ a < P, fsz a (q a).st ≤ (q a).data := by
  have key : ∃ x : Int × Int, ∀ a < P, ((q a).niter, (q a).tflag) = x ∧ fsz a (q a).st ≤ (q a).data := by
    rcases Nat.eq_zero_or_pos P with h0 | h0
    · exact ⟨(0, 0), fun a ha => by omega⟩
    obtain ⟨-, bu, hbu, -⟩ := tune_some_report (h 0 h0) (hbig 0 h0)
    refine ⟨if k = 0 then (1, 0) else (bu.niter, bu.tflag), fun a ha => ?_⟩
    obtain ⟨-, bu', hbu', R⟩ := tune_some_report (h a ha) (hbig a ha)
    rw [hbu] at hbu'
    obtain rfl := Option.some.inj hbu'
    cases k with
    | zero =>
      obtain ⟨d, hd, e⟩ := R.first
      rw [hq a ha] at e
      rw [Option.some.inj e]
      exact ⟨rfl, hd⟩
    | succ i =>
      rw [if_neg (by omega)]
      have e1 := R.run (i + 1)
      rw [hq a ha, List.getElem?_cons_succ] at e1
      obtain ⟨d, hd, e⟩ := R.rest i _ e1.symm
      rw [Nat.add_comm, hq a ha] at e
      rw [Option.some.inj e]
      exact ⟨rfl, hd⟩
  obtain ⟨x, hx⟩ := key
  refine ⟨fun a ha b hb => ?_, fun a ha => (hx a ha).2⟩
  have := (hx a ha).1.trans (hx b hb).1.symm
  exact ⟨(Prod.mk.inj this).1, (Prod.mk.inj this).2⟩

/-- **C74 (FFT3d::tune).**  The trials of `tune` in the forward direction, or with the same layout for input and output: if
all ranks run the trial with the same settings (see C71), `setup` succeeded, and with the array that `tune` has allocated
the trial ends in every schedule and stays within the array and the buffers.

Missing: backward or both directions with different layouts, `C74_tune_false`; clocks that put the first seven trials in
a different order, `C71_false`. -/
theorem C74_tune_partial {P : Nat} {g : Args3} {fsz : Nat → Settings → Int} {clk : Nat → Clock} {t : TuneArgs}
    {s r : Nat → TuneSt} (hv : g.Valid P) (hst : (s 0).st.Valid) (hs : ∀ a < P, (s a).st = (s 0).st)
    (hf : ∀ a < P, ∀ st f, fft3Setup (α := ℝ) P a g st = some (.ok f) → fsz a st = f.fftsize)
    (h : ∀ a < P, tune (fsz a) (clk 0) (clk a) false t (s a) = some (.ok (r a)))
    (hbig : ∀ a < P, ∀ k, ((clk a).run k).tfft < tuneBIG)
    (hc : t.flag = 1 ∨ (g.permute = 0 ∧ ∀ a < P, g.ins a = g.outs a))
    {k : Nat} {q : Nat → Trial} (hq : ∀ a < P, (r a).runs[k]? = some (q a))
    (ho : k < 7 ∨ ∀ a < P, ∀ b < P, ∀ i j, ((clk a).run i).tfft < ((clk a).run j).tfft ↔
        ((clk b).run i).tfft < ((clk b).run j).tfft) :
    ∃ f, SetUp3 P g (q 0).st f ∧ (∀ a < P, (q a).st = (q 0).st) ∧
      ∀ (e : Bool) (J : Nat → Nat → Nat → Int → Nat → Junk) (scaled remaponly : Bool) (n : Nat) (m : Nat → LMem ℝ),
        (∀ a < P, accessible ((m a).ub n) 0 (2 * (q a).data) ∧ accessible (m a).sb 0 (f a).sendsize ∧
          accessible (m a).rb 0 (f a).recvsize) →
        ∃ m', Terminates e P (fun a => (f a).trial (J a) scaled remaponly (q a).niter t.flag (q a).tflag n) m m' := by
  have h0 : 0 < P := hv.procs
  obtain ⟨V, W⟩ := tune_runs_valid (h 0 h0) (hbig 0 h0) hst
  obtain ⟨A, B⟩ := tune_same hs h hbig
  have es : ∀ a < P, (q a).st = (q 0).st := by
    intro a ha
    have : ((r a).runs[k]?).map Trial.st = ((r 0).runs[k]?).map Trial.st := by
      rcases ho with hk | ho
      · exact A k hk a ha 0 h0
      · exact B ((C33_partial hs h hbig).2 ho) k a ha 0 h0
    rw [hq a ha, hq 0 h0] at this
    exact Option.some.inj this
  obtain ⟨f, S⟩ := setUp3_exists hv (W k _ (hq 0 h0))
  obtain ⟨cnt, dat⟩ := tune_same_count h hbig hq
  refine ⟨f, S, es, fun e J scaled remaponly n m hm => ?_⟩
  have hb : Bufs P f n m := by
    refine ⟨fun a ha => ?_, fun a ha => (hm a ha).2.1, fun a ha => (hm a ha).2.2⟩
    have e1 := hf a ha _ _ (S.result a ha)
    have e2 := dat a ha
    rw [es a ha, e1] at e2
    exact accessible_mono (hm a ha).1 (by omega)
  obtain ⟨m', s'⟩ := S.able_trial (e := e) (n := n) (flag := t.flag) (hc.imp_right fun h => .inr h) J scaled remaponly
    (q 0).niter (q 0).tflag m hb
  refine ⟨m', (s'.congr fun a ha => ?_).ok.terminates⟩
  rw [(cnt a ha 0 h0).1, (cnt a ha 0 h0).2]

/-- **C74 (FFT2d::tune)** with doubles, in all directions.

Missing: clocks that put the first seven trials in a different order, `C71_false`. -/
theorem C74_tune_2d_partial {P : Nat} {g : Args2} {fsz : Nat → Settings → Int} {clk : Nat → Clock} {t : TuneArgs}
    {s r : Nat → TuneSt} (hv : g.Valid P) (hst : (s 0).st.Valid) (hs : ∀ a < P, (s a).st = (s 0).st)
    (hf : ∀ a < P, ∀ st f, fft2Setup (α := ℝ) 1 P a g st = some (.ok f) → fsz a st = f.fftsize)
    (h : ∀ a < P, tune (fsz a) (clk 0) (clk a) false t (s a) = some (.ok (r a)))
    (hbig : ∀ a < P, ∀ k, ((clk a).run k).tfft < tuneBIG)
    {k : Nat} {q : Nat → Trial} (hq : ∀ a < P, (r a).runs[k]? = some (q a))
    (ho : k < 7 ∨ ∀ a < P, ∀ b < P, ∀ i j, ((clk a).run i).tfft < ((clk a).run j).tfft ↔
        ((clk b).run i).tfft < ((clk b).run j).tfft) :
    ∃ f, SetUp2 1 P g (q 0).st f ∧ (∀ a < P, (q a).st = (q 0).st) ∧
      ∀ (e : Bool) (J : Nat → Nat → Nat → Int → Nat → Junk) (scaled remaponly : Bool) (n : Nat) (m : Nat → LMem ℝ),
        (∀ a < P, accessible ((m a).ub n) 0 (2 * (q a).data) ∧ accessible (m a).sb 0 (f a).sendsize ∧
          accessible (m a).rb 0 (f a).recvsize) →
        ∃ m', Terminates e P (fun a => (f a).trial (J a) scaled remaponly (q a).niter t.flag (q a).tflag n) m m' := by
  have h0 : 0 < P := hv.procs
  obtain ⟨V, W⟩ := tune_runs_valid (h 0 h0) (hbig 0 h0) hst
  obtain ⟨A, B⟩ := tune_same hs h hbig
  have es : ∀ a < P, (q a).st = (q 0).st := by
    intro a ha
    have : ((r a).runs[k]?).map Trial.st = ((r 0).runs[k]?).map Trial.st := by
      rcases ho with hk | ho
      · exact A k hk a ha 0 h0
      · exact B ((C33_partial hs h hbig).2 ho) k a ha 0 h0
    rw [hq a ha, hq 0 h0] at this
    exact Option.some.inj this
  obtain ⟨f, S⟩ := setUp2_exists (w := 1) hv (valid2_double (W k _ (hq 0 h0)))
  obtain ⟨cnt, dat⟩ := tune_same_count h hbig hq
  refine ⟨f, S, es, fun e J scaled remaponly n m hm => ?_⟩
  have hb : Bufs2 P f n m := by
    refine ⟨fun a ha => ?_, fun a ha => (hm a ha).2.1, fun a ha => (hm a ha).2.2⟩
    have e1 := hf a ha _ _ (S.result a ha)
    have e2 := dat a ha
    rw [es a ha, e1] at e2
    exact accessible_mono (hm a ha).1 (by omega)
  obtain ⟨m', s'⟩ := S.able_trial (e := e) (n := n) J scaled remaponly (q 0).niter t.flag (q 0).tflag m hb
  refine ⟨m', (s'.congr fun a ha => ?_).ok.terminates⟩
  rw [(cnt a ha 0 h0).1, (cnt a ha 0 h0).2]

/-- Two ranks, the second always one second later: the fourth trial of `tune` ends. -/
example : ∃ (fsz : Nat → Settings → Int) (r : Nat → TuneSt) (q : Nat → Trial),
    (∀ a < 2, ∀ st f, fft3Setup (α := ℝ) 2 a (demo3 1) st = some (.ok f) → fsz a st = f.fftsize) ∧
    (∀ a < 2, tune (fsz a) (lateClock 0) (lateClock a) false freely newTuneSt = some (.ok (r a))) ∧
    (∀ a < 2, (r a).runs[3]? = some (q a)) ∧
    ∃ f, SetUp3 2 (demo3 1) (q 0).st f ∧ ∀ (e : Bool) (J : Nat → Nat → Nat → Int → Nat → Junk) (m : Nat → LMem ℝ),
      (∀ a < 2, accessible ((m a).ub 0) 0 (2 * (q a).data) ∧ accessible (m a).sb 0 (f a).sendsize ∧
        accessible (m a).rb 0 (f a).recvsize) →
      ∃ m', Terminates e 2 (fun a => (f a).trial (J a) true false (q a).niter 1 (q a).tflag 0) m m' := by
  let fsz : Nat → Settings → Int := fun a st => match fft3Setup (α := ℝ) 2 a (demo3 1) st with
    | some (.ok f) => f.fftsize
    | _ => 0
  have hf : ∀ a < 2, ∀ st f, fft3Setup (α := ℝ) 2 a (demo3 1) st = some (.ok f) → fsz a st = f.fftsize := by
    intro a _ st f e
    simp only [fsz, e]
  have hbig : ∀ a < 2, ∀ k, ((lateClock a).run k).tfft < tuneBIG := by
    intro a ha k
    have h1 : timeOf [(2, 1 / 2)] k ≤ 1 := by simp only [timeOf]; split_ifs <;> norm_num
    have h2 : (a : ℚ) < 2 := by exact_mod_cast ha
    simp only [lateClock, took, tuneBIG]
    linarith
  have ex : ∀ a < 2, ∃ r, tune (fsz a) (lateClock 0) (lateClock a) false freely newTuneSt = some (.ok r) :=
    fun a ha => C32_defined newTuneSt timeFp_id (by decide) (by decide) (by norm_num [lateClock])
      (by norm_num [lateClock, took, timeOf]) (by norm_num [lateClock, took, timeOf, intMax]) (hbig a ha)
  have : Nonempty TuneSt := ⟨newTuneSt⟩
  choose! r hr using ex
  have hq : ∀ a < 2, ∃ q, (r a).runs[3]? = some q := by
    intro a ha
    obtain ⟨-, bu, hbu, Rp⟩ := tune_some_report (hr a ha) (hbig a ha)
    have hbv : tuneBudget (lateClock 0).fp freely (lateClock 0).setup0 ((lateClock 0).run 0).tfft = some ⟨1, 0, 10⟩ := by
      simp [tuneBudget, freely]
    rw [hbv] at hbu
    obtain rfl := Option.some.inj hbu
    obtain ⟨d, -, e1⟩ := Rp.rest 2 ⟨1, 0, 2⟩ (by simp [tunePlan])
    exact ⟨_, e1⟩
  have : Nonempty Trial := ⟨(hq 0 (by decide)).choose⟩
  choose! q hq using hq
  obtain ⟨f, S, -, T⟩ := C74_tune_partial (t := freely) (demo3_valid 1 (by decide))
    (by simp [Settings.Valid, newTuneSt]) (s := fun _ => newTuneSt) (fun _ _ => rfl) hf hr hbig (.inl rfl) hq
    (.inl (by decide))
  exact ⟨fsz, r, q, hf, hr, hq, f, S, fun e J m hm => T e J true false 0 m hm⟩

/-! ## The test programs -/

namespace Driver

variable {rnd : ℝ → ℝ}

/-- **C74 (test3d -t).**  The test program with `-t` from `initialize` to the end of `timing`, for all numbers of passes:
every execution with the memory that the program allocates ends and stays within it.

Missing: modes 0 and 1 with bricks and different layouts, `C74_test3d_false`. -/
theorem C74_timing_partial {o : Opt3} {P : Nat} (ho : o.Accepted P) {a : Args3} (_ha : o.args rnd P = some a)
    {f : Nat → Fft3 ℝ} (S : SetUp3 P a o.settings f)
    (hc : 2 ≤ o.mode ∨ o.eflag = 0 ∨ (a.permute = 0 ∧ ∀ r < P, a.ins r = a.outs r)) (e : Bool)
    (J J' : Nat → Nat → Nat → Junk) (K : Nat → Nat → Int → Nat → Junk) {m : Nat → LMem ℝ} (hb : Bufs P f 0 m) :
    ∃ m', Terminates e P (fun r => o.run rnd r (a.ins r) (f r) (J r) (J' r) ++ o.timing (a.ins r) (f r) (K r)) m m' := by
  have hs : ∀ r < P, 0 ≤ (a.ins r).count ∧ (a.ins r).count ≤ fsz f r := by
    obtain ⟨c, rfl, rfl, _, _, R⟩ := S.ready
    exact fun r hr => ⟨count_nonneg _, R.size_ins hr⟩
  have hf : ∀ r < P, Fills (a.ins r).count (o.initialize rnd r (a.ins r)) (o.start rnd r (a.ins r)) := by
    intro r hr
    rw [← nfft3_eq (S.args.properIn r hr).1]
    exact Opt3.initialize_fills rnd (S.args.properIn r hr).1 (seedOk3 ho hr)
  have hc' : o.mode < 2 → Covered P a o.settings (-1) := by
    intro hm
    rcases hc with h | h
    · omega
    · exact .inr h
  obtain ⟨m1, s1, _⟩ := fillStep e (size := fsz f) (m := m) hs hb.data hf
  obtain ⟨m2, s2⟩ := S.able_loop (e := e) o.mode hc' o.rflag J J' o.nloop m1 (hb.congr s1.dom)
  have s12 := s1.append s2
  obtain ⟨m3, s3⟩ := S.able_timing (e := e) o hc' K m2 (hb.congr s12.dom)
  exact ⟨m3, ((s12.append s3).congr fun r _ => rfl).ok.terminates⟩

/-- **C74 (test2d -t).**  In 2d for all modes and settings. -/
theorem C74_timing_2d {o : Opt2} {P : Nat} (ho : o.Accepted P) {w : Int} {a : Args2} (_ha : o.args rnd P = some a)
    {f : Nat → Fft2 ℝ} (S : SetUp2 w P a o.settings f) (e : Bool)
    (J J' : Nat → Nat → Nat → Junk) (K : Nat → Nat → Int → Nat → Junk) {m : Nat → LMem ℝ} (hb : Bufs2 P f 0 m) :
    ∃ m', Terminates e P (fun r => o.run rnd r (a.ins r) (f r) (J r) (J' r) ++ o.timing (a.ins r) (f r) (K r)) m m' := by
  have hs : ∀ r < P, 0 ≤ (a.ins r).count ∧ (a.ins r).count ≤ fsz2 f r := by
    obtain ⟨c, rfl, rfl, rfl, _, _, R⟩ := S.ready
    exact fun r hr => ⟨by rw [← Box2.lift_count]; exact count_nonneg _, R.size_ins hr⟩
  have hf : ∀ r < P, Fills (a.ins r).count (o.initialize rnd r (a.ins r)) (o.start rnd r (a.ins r)) := by
    intro r hr
    rw [← nfft2_eq (S.args.properIn r hr).1]
    exact Opt2.initialize_fills rnd (S.args.properIn r hr).1 (seedOk2 ho hr)
  obtain ⟨m1, s1, _⟩ := fillStep e (size := fsz2 f) (m := m) hs hb.data hf
  obtain ⟨m2, s2⟩ := S.able_loop (e := e) o.mode o.rflag J J' o.nloop m1 (hb.congr s1.dom)
  have s12 := s1.append s2
  obtain ⟨m3, s3⟩ := S.able_timing (e := e) o K m2 (hb.congr s12.dom)
  exact ⟨m3, ((s12.append s3).congr fun r _ => rfl).ok.terminates⟩

/-- **C74 (test3d -tune -v -t).**  The whole test program with `-tune` in mode 0 with the same processor grid for input and
output: for all supported grids, numbers of ranks and data, if the clocks of the ranks put the trials in the same order, every
trial ends, `setup` with the best settings succeeds on all ranks, the timed loop and `timing` end and stay within the
array and the buffers, and the error printed is 0. -/
theorem C74_test3d_tune (R : Rounding rnd) {o : Opt3} {P : Nat} (ho : o.Accepted P) (hs : o.Small P)
    (hx : Supported o.nx) (hy : Supported o.ny) (hz : Supported o.nz) (hm : o.mode = 0) (hp : o.pin = o.pout)
    {t : TuneArgs} (ht : t.flag = tuneFlag o.mode) :
    ∃ a : Args3, o.args rnd P = some a ∧
      ∀ (fsz : Nat → Settings → Int) (clk : Nat → Clock) (s r : Nat → TuneSt),
        (∀ i < P, (s i).st = o.settings) →
        (∀ i < P, ∀ st f, fft3Setup (α := ℝ) P i a st = some (.ok f) → fsz i st = f.fftsize) →
        (∀ i < P, tune (fsz i) (clk 0) (clk i) false t (s i) = some (.ok (r i))) →
        (∀ i < P, ∀ k, ((clk i).run k).tfft < tuneBIG) →
        (∀ i < P, ∀ j < P, ∀ k l, ((clk i).run k).tfft < ((clk i).run l).tfft ↔
          ((clk j).run k).tfft < ((clk j).run l).tfft) →
        (∀ (k : Nat) (q : Nat → Trial), (∀ i < P, (r i).runs[k]? = some (q i)) →
          ∃ f : Nat → Fft3 ℝ, (∀ i < P, fft3Setup P i a (q i).st = some (.ok (f i))) ∧
            ∀ (e : Bool) (J : Nat → Nat → Nat → Int → Nat → Junk) (m : Nat → LMem ℝ),
              (∀ i < P, accessible ((m i).ub 0) 0 (2 * (q i).data) ∧ accessible (m i).sb 0 (f i).sendsize ∧
                accessible (m i).rb 0 (f i).recvsize) →
              ∃ m', Terminates e P (fun i => (f i).trial (J i) true o.rflag (q i).niter t.flag (q i).tflag 0) m m') ∧
        ∃ f : Nat → Fft3 ℝ, (∀ i < P, fft3Setup P i a (r i).st = some (.ok (f i))) ∧
          ∀ (e : Bool) (J J' : Nat → Nat → Nat → Junk) (K : Nat → Nat → Int → Nat → Junk) (m : Nat → LMem ℝ),
            let o' : Opt3 := { o with nloop := loopsAfter o.nloop (r 0).npertrial }
            (∀ i < P, accessible ((m i).ub 0) 0 (2 * (f i).fftsize) ∧ accessible (m i).sb 0 (f i).sendsize ∧
              accessible (m i).rb 0 (f i).recvsize) →
            (∃ m', Terminates e P (fun i => o'.run rnd i (a.ins i) (f i) (J i) (J' i)) m m' ∧
              epsmax P (fun i => o'.validate rnd i (a.ins i) ((m' i).ub 0)) = some 0) ∧
            ∃ m', Terminates e P (fun i => o'.run rnd i (a.ins i) (f i) (J i) (J' i) ++
              o'.timing (a.ins i) (f i) (K i)) m m' := by
  obtain ⟨a, ha, hv, _⟩ := C60_args_valid R ho hs hx hy hz
  have h0 : 0 < P := hv.procs
  have hst : o.settings.Valid := by
    unfold Settings.Valid Opt3.settings
    exact ho.pflag
  have hgrid : o.inGrid rnd P = o.outGrid rnd P := by
    unfold Opt3.inGrid Opt3.outGrid
    rw [hp, if_pos (Or.inl hm)]
  have hsame : a.permute = 0 ∧ a.ins = a.outs := by
    have ha' := ha
    unfold Opt3.args at ha'
    rw [hgrid] at ha'
    simp only [Option.bind_eq_some_iff, Option.map_eq_some_iff] at ha'
    obtain ⟨p, h1, q, h2, rfl⟩ := ha'
    rw [h1] at h2
    cases h2
    simp [hm]
  have hsl : a.permute = 0 ∧ ∀ r < P, a.ins r = a.outs r := ⟨hsame.1, fun r _ => by rw [hsame.2]⟩
  refine ⟨a, ha, fun fsz clk s r hs0 hf h hbig hord => ⟨fun k q hq => ?_, ?_⟩⟩
  · obtain ⟨f, S, es, T⟩ := C74_tune_partial (t := t) hv (by rw [hs0 0 h0]; exact hst)
      (fun i hi => by rw [hs0 i hi, hs0 0 h0]) hf h hbig (.inr hsl) hq (.inr hord)
    exact ⟨f, fun i hi => by rw [es i hi]; exact S.result i hi, fun e J m hmem => T e J true o.rflag 0 m hmem⟩
  · have hs1 : ∀ i < P, (s i).st = (s 0).st := fun i hi => by rw [hs0 i hi, hs0 0 h0]
    obtain ⟨V, -⟩ := tune_runs_valid (h 0 h0) (hbig 0 h0) (by rw [hs0 0 h0]; exact hst)
    have es : ∀ i < P, (r i).st = (r 0).st := fun i hi => (C33_partial hs1 h hbig).2 hord i hi 0 h0
    obtain ⟨f, S⟩ := setUp3_exists hv V
    refine ⟨f, fun i hi => by rw [es i hi]; exact S.result i hi, fun e J J' K m => ?_⟩
    intro o' hmem
    let o'' : Opt3 := { o' with cflag := (r 0).st.collective, eflag := (r 0).st.exchange, pflag := (r 0).st.packflag }
    have ho'' : o''.Accepted P := { ho with pflag := V }
    have hb : Bufs P f 0 m :=
      ⟨fun r hr => (hmem r hr).1, fun r hr => (hmem r hr).2.1, fun r hr => (hmem r hr).2.2⟩
    have S'' : SetUp3 P a o''.settings f := S
    have ha'' : o''.args rnd P = some a := ha
    exact ⟨C61_validation_partial ho'' (show o.mode < 2 by omega) ha'' S'' e J J' hb (Or.inr (Or.inl hsl))
        (Or.inr (Or.inr fun r hr => by rw [hsl.2 r hr])),
      C74_timing_partial ho'' ha'' S'' (.inr (.inr hsl)) e J J' K hb⟩

example : let o : Opt3 := { default3 with iflag := .random 1, nloop := 0, nx := 60 }
    o.Accepted 7 ∧ o.Small 7 ∧ Supported o.nx ∧ Supported o.ny ∧ Supported o.nz ∧ o.mode = 0 ∧ o.pin = o.pout ∧
      (⟨0, 5, 0, 1⟩ : TuneArgs).flag = tuneFlag o.mode ∧ tuneCheck false ⟨0, 5, 0, 1⟩ = none :=
  ⟨{ default3_accepted (P := 7) (by decide) with
      nx := by decide
      seed := by
        intro n hn r hr
        cases hn
        omega }, by simp [Opt3.Small, default3],
    supported_of (k := 3) (by decide) (by decide), supported_of (k := 3) (by decide) (by decide),
    supported_of (k := 3) (by decide) (by decide), rfl, rfl, rfl, by decide⟩

/-- **C74 (number of passes).**  After `-tune` the timed loop makes as many passes as the user asked for; with `-n 0` as many
as each of the trials after the first, and at least one. -/
theorem C74_loops {fs : Settings → Int} {root own : Clock} {t : TuneArgs} {s r : TuneSt}
    (h : tune fs root own false t s = some (.ok r)) (hbig : ∀ k, (own.run k).tfft < tuneBIG) (nloop : Nat) :
    0 < loopsAfter nloop r.npertrial ∧ (0 < nloop → loopsAfter nloop r.npertrial = nloop) ∧
    (nloop = 0 → ∀ k q, r.runs[k + 1]? = some q → q.niter = ((loopsAfter nloop r.npertrial : Nat) : Int)) := by
  obtain ⟨hck, bu, hbu, R⟩ := tune_some_report h hbig
  have h1 : 1 ≤ r.npertrial := by
    rw [R.npertrial]
    have hni : 0 < t.niter := by
      unfold tuneCheck at hck
      simp only [Bool.false_eq_true, if_false] at hck
      split_ifs at hck with c1 c2 c3
      push Not at c2
      exact c2.1
    rcases tuneBudget_cases hbu with ⟨-, rfl⟩ | ⟨-, -, n1, -, ⟨h, rfl⟩ | ⟨-, n2, -, ⟨h, rfl⟩ | ⟨-, -, n3, -, rfl⟩⟩⟩
    · exact hni
    · exact h
    · exact h
    · exact le_rfl
  have e0 : loopsAfter 0 r.npertrial = r.npertrial.toNat := if_pos rfl
  have e1 : 0 < nloop → loopsAfter nloop r.npertrial = nloop := fun hn => if_neg (by omega)
  refine ⟨?_, e1, ?_⟩
  · rcases Nat.eq_zero_or_pos nloop with rfl | hn
    · rw [e0]; omega
    · rw [e1 hn]; exact hn
  · rintro rfl k q hq
    rw [e0]
    have e2 := R.run (k + 1)
    rw [hq, List.getElem?_cons_succ] at e2
    obtain ⟨d, hd, e⟩ := R.rest k _ e2.symm
    rw [Nat.add_comm, hq] at e
    have e3 : q.niter = bu.niter := by rw [Option.some.inj e]
    rw [e3, ← R.npertrial]
    omega

/-! ## What is timed -/

/-- The runs that a trial times: the whole transform, only its 1d FFTs, only its remaps, one of its remaps. -/
inductive Timed where
  | whole
  | ffts
  | remaps
  | remap (which : Int)

/-- The documentation of `tune` (fft3d.cpp:710-714): with `flag` 1 or -1 just forward or inverse, with 0 both together. -/
def timedDirs : Int → List Int
  | 0 => [1, -1]
  | d => [d]

/-- With `tflag` 1 also 1d FFTs and remap operations (fft3d.cpp:714); there are `k` remaps. -/
def timedKinds (k : Nat) : Int → List Timed
  | 0 => [.whole]
  | _ => [.whole, .ffts, .remaps] ++ (List.range k).map fun i => .remap (i + 1)

/-- One timed run in 3d. -/
def Timed.run3 (f : Fft3 ℝ) (J : Nat → Nat → Int → Nat → Junk) (scaled remaponly : Bool) (n i : Nat) (d : Int) :
    Timed → List (Instr ℝ)
  | .whole => f.compute (J 0 i d) scaled remaponly d n n
  | .ffts => f.only1d (J 1 i d) d n
  | .remaps => f.onlyRemaps d n n
  | .remap w => f.onlyOneRemap d w n n

/-- One timed run in 2d. -/
def Timed.run2 (f : Fft2 ℝ) (J : Nat → Nat → Int → Nat → Junk) (scaled remaponly : Bool) (n i : Nat) (d : Int) :
    Timed → List (Instr ℝ)
  | .whole => f.compute (J 0 i d) scaled remaponly d n n
  | .ffts => f.only1d (J 1 i d) d n
  | .remaps => f.onlyRemaps d n n
  | .remap w => f.onlyOneRemap d w n n

theorem directions_eq {α : Type} (flag : Int) (call : Int → List (Instr α)) :
    directions flag call = (timedDirs flag).flatMap call := by
  unfold directions
  by_cases h : flag = 0
  · subst h; simp [timedDirs]
  · rw [if_pos h, timedDirs]
    · simp
    · exact h

/-- **C74 (what a trial does).**  A trial makes `nper` passes of the whole transform, and with `tflag` then `nper` passes of each
of the six other kinds, every pass in the directions that `flag` asks for. -/
theorem C74_trial_runs (f : Fft3 ℝ) (J : Nat → Nat → Int → Nat → Junk) (scaled remaponly : Bool) (nper : Nat)
    (flag tflag : Int) (n : Nat) :
    f.trial J scaled remaponly nper flag tflag n =
      (timedKinds 4 tflag).flatMap fun k => (List.range nper).flatMap fun i =>
        (timedDirs flag).flatMap fun d => k.run3 f J scaled remaponly n i d := by
  simp only [← directions_eq]
  unfold Fft3.trial passes
  by_cases h : tflag = 0
  · subst h; simp [timedKinds, Timed.run3]
  · rw [if_pos h, timedKinds]
    · simp [Timed.run3, loopVals, List.range_succ]
    · exact h

/-- **C74 (what a trial does)** in 2d, with three single remaps. -/
theorem C74_trial_runs_2d (f : Fft2 ℝ) (J : Nat → Nat → Int → Nat → Junk) (scaled remaponly : Bool) (nper : Nat)
    (flag tflag : Int) (n : Nat) :
    f.trial J scaled remaponly nper flag tflag n =
      (timedKinds 3 tflag).flatMap fun k => (List.range nper).flatMap fun i =>
        (timedDirs flag).flatMap fun d => k.run2 f J scaled remaponly n i d := by
  simp only [← directions_eq]
  unfold Fft2.trial passes
  by_cases h : tflag = 0
  · subst h; simp [timedKinds, Timed.run2]
  · rw [if_pos h, timedKinds]
    · simp [Timed.run2, loopVals, List.range_succ]
    · exact h

/-- **C74 (directions).**  `tune` times the directions that the test program runs: both in modes 0 and 1, forward in modes 2
and 3. -/
theorem C74_directions {α : Type} (mode : Nat) (call : Int → List (Instr α)) :
    byMode mode call = (timedDirs (tuneFlag mode)).flatMap call := by
  unfold byMode tuneFlag
  by_cases h : mode < 2
  · rw [if_pos h, if_neg (by omega)]; simp [timedDirs]
  · rw [if_neg h, if_pos (by omega)]; simp [timedDirs]

example : timedKinds 3 1 = [.whole, .ffts, .remaps, .remap 1, .remap 2, .remap 3] ∧ timedDirs (tuneFlag 1) = [1, -1] ∧
    timedDirs (tuneFlag 3) = [1] := ⟨rfl, rfl, rfl⟩

/-! ## Violations -/

/-- `test3d -g 3 2 2 -pin 1 1 2 -pout 2 1 1 -c point -e brick` on two ranks. -/
def overOpt : Opt3 := { default3 with nx := 3, ny := 2, nz := 2, pin := (1, 1, 2), pout := (2, 1, 1), cflag := 0, eflag := 1 }

theorem overOpt_accepted : overOpt.Accepted 2 where
  procs := by decide
  nx := by decide
  ny := by decide
  nz := by decide
  pin := Or.inr rfl
  pout := Or.inr rfl
  seed := fun n h => (nomatch h)
  mode := by decide
  pflag := Or.inr (Or.inr rfl)

/-- The processor grids do not depend on the rounding: areas that are equal consist of integers, the others differ
much. -/
theorem overGrids_rnd (R : Rounding rnd) {a : Args3} (h1 : a.nfast = 3) (h2 : a.nmid = 2) (h3 : a.nslow = 2)
    (hr : a.fp = rnd) : setupGrids 2 a 1 = some ⟨(1, 1, 2), (2, 1, 1), (2, 1, 1), (2, 1, 1)⟩ := by
  have F : FpOK 2 rnd := ⟨by norm_num, R.rel⟩
  have f : ∀ n : Nat, n ≤ 100 → rnd n = n := fun n hn => by
    have := R.int n (by rw [abs_of_nonneg (by positivity)]; exact le_trans (by exact_mod_cast hn) (by norm_num : (100 : ℤ) ≤ 2 ^ 53))
    exact_mod_cast this
  have f1 : rnd 1 = 1 := by exact_mod_cast f 1 (by norm_num)
  have f2 : rnd 2 = 2 := by exact_mod_cast f 2 (by norm_num)
  have f3 : rnd 3 = 3 := by exact_mod_cast f 3 (by norm_num)
  have f4 : rnd 4 = 4 := by exact_mod_cast f 4 (by norm_num)
  have f5 : rnd 5 = 5 := by exact_mod_cast f 5 (by norm_num)
  have f6 : rnd 6 = 6 := by exact_mod_cast f 6 (by norm_num)
  have f7 : rnd 7 = 7 := by exact_mod_cast f 7 (by norm_num)
  have f8 : rnd 8 = 8 := by exact_mod_cast f 8 (by norm_num)
  have f10 : rnd 10 = 10 := by exact_mod_cast f 10 (by norm_num)
  have f11 : rnd 11 = 11 := by exact_mod_cast f 11 (by norm_num)
  have f12 : rnd 12 = 12 := by exact_mod_cast f 12 (by norm_num)
  have f16 : rnd 16 = 16 := by exact_mod_cast f 16 (by norm_num)
  have f18 : rnd 18 = 18 := by exact_mod_cast f 18 (by norm_num)
  have f20 : rnd 20 = 20 := by exact_mod_cast f 20 (by norm_num)
  have f22 : rnd 22 = 22 := by exact_mod_cast f 22 (by norm_num)
  have f32 : rnd 32 = 32 := by exact_mod_cast f 32 (by norm_num)
  have near : ∀ {i j k nx ny nz : Nat} (_ : 0 < i ∧ 0 < j ∧ 0 < k) (_ : i * j * k = 2) (_ : 0 < nx ∧ 0 < ny ∧ 0 < nz)
      (_ : nx < 2 ^ 31 ∧ ny < 2 ^ 31 ∧ nz < 2 ^ 31) (_ : (nx = 1 → i = 1) ∧ (ny = 1 → j = 1) ∧ (nz = 1 → k = 1)),
      NearR 7 ((nx : ℝ) / i * (ny / j) + ny / j * (nz / k) + nx / i * (nz / k)) (surfarea rnd i j k nx ny nz) :=
    fun a b c d e => surfarea_near F a.1 a.2.1 a.2.2 b c.1 c.2.1 c.2.2 d.1 d.2.1 d.2.2 e.1 e.2.1 e.2.2
  have g1 : procGrid rnd 2 1 2 2 = some (1, 1, 2) := by
    rw [procGrid_eq, gridTriples_two]
    norm_num [testGrid, surfarea, BIG, minarea0, f1, f2, f4, f8, f5, f3, f12, f16]
  have g2 : procGrid rnd 2 3 1 2 = some (2, 1, 1) := by
    have s1 : surfarea rnd 1 1 2 3 1 2 = 7 := by norm_num [surfarea, f1, f2, f3, f4, f7]
    have s2 : surfarea rnd 1 2 1 3 1 2 = BIG := by norm_num [surfarea]
    have s3 : surfarea rnd 2 1 1 3 1 2 < 7 := by
      have := (near (i := 2) (j := 1) (k := 1) (nx := 3) (ny := 1) (nz := 2) (by decide) (by decide) (by decide)
        (by decide) (by decide)).hi
      norm_num at this
      linarith
    have m : minarea0 rnd 3 1 2 = 22 := by norm_num [minarea0, f6, f2, f4, f10, f12, f22]
    rw [procGrid_eq, gridTriples_two, m]
    simp only [List.foldl_cons, List.foldl_nil, testGrid, s1, s2]
    norm_num [BIG, s3]
  have g3 : procGrid rnd 2 3 2 1 = some (2, 1, 1) := by
    have s1 : surfarea rnd 1 1 2 3 2 1 = BIG := by norm_num [surfarea]
    have s2 : surfarea rnd 1 2 1 3 2 1 = 7 := by norm_num [surfarea, f1, f2, f3, f4, f7]
    have s3 : surfarea rnd 2 1 1 3 2 1 < 7 := by
      have := (near (i := 2) (j := 1) (k := 1) (nx := 3) (ny := 2) (nz := 1) (by decide) (by decide) (by decide)
        (by decide) (by decide)).hi
      norm_num at this
      linarith
    have m : minarea0 rnd 3 2 1 = 22 := by norm_num [minarea0, f6, f2, f4, f16, f12, f22]
    rw [procGrid_eq, gridTriples_two, m]
    simp only [List.foldl_cons, List.foldl_nil, testGrid, s1, s2]
    norm_num [BIG, s3]
  have g4 : procGrid rnd 2 3 2 2 = some (2, 1, 1) := by
    have s1 : surfarea rnd 1 1 2 3 2 2 = 11 := by norm_num [surfarea, f1, f2, f3, f6, f8, f11]
    have s2 : surfarea rnd 1 2 1 3 2 2 = 11 := by norm_num [surfarea, f1, f2, f3, f5, f6, f11]
    have s3 : surfarea rnd 2 1 1 3 2 2 < 11 := by
      have := (near (i := 2) (j := 1) (k := 1) (nx := 3) (ny := 2) (nz := 2) (by decide) (by decide) (by decide)
        (by decide) (by decide)).hi
      norm_num at this
      linarith
    have m : minarea0 rnd 3 2 2 = 32 := by norm_num [minarea0, f6, f4, f8, f12, f20, f32]
    rw [procGrid_eq, gridTriples_two, m]
    simp only [List.foldl_cons, List.foldl_nil, testGrid, s1, s2]
    norm_num [s3]
  unfold setupGrids
  rw [h1, h2, h3, hr]
  have e3 : (3 : Int).toNat = 3 := rfl
  have e2 : (2 : Int).toNat = 2 := rfl
  simp only [e3, e2, g1, g2, g3, Option.bind_eq_bind, Option.bind_some]
  simp [g4]

/-- What `setup` makes for the arguments of the test program. -/
theorem overOpt_setUp (R : Rounding rnd) {a : Args3} (ha : overOpt.args rnd 2 = some a) {st : Settings}
    (hst : st.exchange = 1) {f : Nat → Fft3 ℝ} (S : SetUp3 2 a st f) : SetUp3 2 overArgs st f := by
  have e1 : overOpt.inGrid rnd 2 = some (1, 1, 2) := rfl
  have e2 : overOpt.outGrid rnd 2 = some (2, 1, 1) := rfl
  have ha' := ha
  unfold Opt3.args at ha'
  rw [e1, e2] at ha'
  cases ha'
  refine S.other overArgs_valid rfl rfl rfl rfl ?_ fun r hr => ?_
  · rw [hst, overGrids, overGrids_rnd R rfl rfl rfl rfl]
  dsimp only
  rw [box3_eq R (P := 2) (by decide) (by decide) ⟨by decide, by decide⟩ ⟨by decide, by decide⟩ ⟨by decide, by decide⟩ hr,
    box3_eq R (P := 2) (by decide) (by decide) ⟨by decide, by decide⟩ ⟨by decide, by decide⟩ ⟨by decide, by decide⟩ hr]
  have : r = 0 ∨ r = 1 := by omega
  rcases this with rfl | rfl <;> decide

/-- **C74 is false for test3d** (disagreement 37): `mpirun -np 2 test3d -g 3 2 2 -pin 1 1 2 -pout 2 1 1 -c point -e brick`.
The options are accepted and `setup` succeeds.  With the send buffer of rank 1 that `setup` allocates (4 numbers) the loop does
not complete: there is an execution in which rank 1 accesses its send buffer out of bounds. -/
theorem C74_test3d_false (R : Rounding rnd) (e : Bool) (J J' : Nat → Nat → Nat → Junk) :
    overOpt.Accepted 2 ∧ ∃ (a : Args3) (f : Nat → Fft3 ℝ), overOpt.args rnd 2 = some a ∧
      (∀ r < 2, fft3Setup 2 r a overOpt.settings = some (.ok (f r))) ∧ (f 1).sendsize = 4 ∧
      ∀ m : Nat → LMem ℝ, Bufs 2 f 0 m → (∀ x, (f 1).sendsize ≤ x → (m 1).sb x = none) →
        (∀ m', ¬Terminates e 2 (fun r => overOpt.run rnd r (a.ins r) (f r) (J r) (J' r)) m m') ∧
        ∃ k c, Run e k (initCfg 2 (fun r => overOpt.run rnd r (a.ins r) (f r) (J r) (J' r)) m) c ∧ Fails c 1 := by
  have hsm : overOpt.Small 2 := by simp [overOpt, Opt3.Small]
  have h2 : Supported 2 := supported_of (k := 1) (by decide) (by decide)
  have h3 : Supported 3 := supported_of (k := 1) (by decide) (by decide)
  refine ⟨overOpt_accepted, ?_⟩
  obtain ⟨a, ha, hv, _⟩ := C60_args_valid R overOpt_accepted hsm h3 h2 h2
  obtain ⟨f, S⟩ := setUp3_exists (st := overOpt.settings) hv (Or.inr (Or.inr rfl))
  have S' := overOpt_setUp R ha rfl S
  refine ⟨a, f, ha, S.result, overSize S', fun m hb hsb => ?_⟩
  have hs : ∀ r < 2, 0 ≤ (a.ins r).count ∧ (a.ins r).count ≤ fsz f r := by
    obtain ⟨c, hP, ha, _, _, R⟩ := S.ready
    rw [← hP, ← ha]
    exact fun r hr => ⟨count_nonneg _, R.size_ins hr⟩
  have hf : ∀ r < 2, Fills (a.ins r).count (overOpt.initialize rnd r (a.ins r)) (overOpt.start rnd r (a.ins r)) := by
    intro r hr
    rw [← nfft3_eq (S.args.properIn r hr).1]
    exact Opt3.initialize_fills rnd (S.args.properIn r hr).1 (seedOk3 overOpt_accepted hr)
  obtain ⟨m1, s1, _⟩ := fillStep e (size := fsz f) (m := m) hs hb.data hf
  obtain ⟨m2, s2⟩ := S'.able_compute (e := e) (n := 0) (flag := 1) (.inl rfl) (fun r => J r 0) true false m1
    (hb.congr s1.dom)
  have hex := over_fails S' e (fun r => J' r 0) true (s1.append s2) hb (hsb 4 (by rw [overSize S']))
    (prog := fun r => overOpt.run rnd r (a.ins r) (f r) (J r) (J' r)) (q := fun _ => []) (fun r _ => by
      simp only [Opt3.run, overOpt, default3, loop3, show (0 : Nat) < 2 by decide, if_true]
      simp)
  obtain ⟨k, c', hrun, hfail⟩ := hex
  exact ⟨fun m' T => T.safe k c' hrun 1 hfail, k, c', hrun, hfail⟩

/-- **C74 is false for tune** (disagreement 37): the third trial of `tune` without limit on the time and not only forward, for
example of `mpirun -np 2 test3d -g 3 2 2 -pin 1 1 2 -pout 2 1 1 -tune 5 0 0`, accesses the send buffer of rank 1
out of bounds. -/
theorem C74_tune_false (R : Rounding rnd) {a : Args3} (ha : overOpt.args rnd 2 = some a) {fs : Settings → Int}
    {root own : Clock} {t : TuneArgs} {s r : TuneSt} (h : tune fs root own false t s = some (.ok r))
    (hbig : ∀ k, (own.run k).tfft < tuneBIG) (hflag : t.flag ≠ 1) (ht : t.tmax = 0) :
    ∃ q, r.runs[2]? = some q ∧ q.st = ⟨0, 1, 2⟩ ∧ ∀ f, SetUp3 2 a q.st f →
      ∀ (m : Nat → LMem ℝ) (n : Nat), Bufs 2 f n m → (∀ x, (f 1).sendsize ≤ x → (m 1).sb x = none) →
      ∀ (e : Bool) (J : Nat → Nat → Nat → Int → Nat → Junk) (scaled : Bool),
        (∀ m', ¬Terminates e 2 (fun i => (f i).trial (J i) scaled false q.niter t.flag q.tflag n) m m') ∧
        ∃ k c, Run e k (initCfg 2 (fun i => (f i).trial (J i) scaled false q.niter t.flag q.tflag n) m) c ∧ Fails c 1 := by
  obtain ⟨hck, bu, hbu, Rp⟩ := tune_some_report h hbig
  have hbu' : bu = ⟨t.niter, t.tflag, 10⟩ := by
    unfold tuneBudget at hbu
    rw [ht] at hbu
    split_ifs at hbu with c1 <;> simp at hbu
    all_goals exact hbu.symm
  subst hbu'
  have hni : 0 < t.niter ∧ (t.flag = 0 ∨ t.flag = -1) := by
    unfold tuneCheck at hck
    simp only [Bool.false_eq_true, if_false] at hck
    split_ifs at hck with c1 c2 c3
    push Not at c1 c2
    exact ⟨c2.1, by omega⟩
  obtain ⟨d, -, e1⟩ := Rp.rest 1 ⟨0, 1, 2⟩ (by simp [tunePlan])
  refine ⟨_, e1, rfl, fun f S m n hb hsb e J scaled => ?_⟩
  have S' := overOpt_setUp R ha rfl S
  have h4 : (m 1).sb 4 = none := hsb 4 (by rw [overSize S'])
  obtain ⟨j, hj⟩ : ∃ j : Nat, t.niter.toNat = j + 1 := ⟨t.niter.toNat - 1, by omega⟩
  have hex : ∃ k c, Run e k (initCfg 2 (fun i => (f i).trial (J i) scaled false t.niter t.flag t.tflag n) m) c ∧ Fails c 1 := by
    rcases hni.2 with h0 | h0
    · obtain ⟨m2, s2⟩ := S'.able_compute (e := e) (n := n) (flag := 1) (.inl rfl) (fun r => J r 0 0 1) scaled false m hb
      have hq : ∀ i, ∃ q, (f i).trial (J i) scaled false t.niter t.flag t.tflag n =
          (f i).compute (J i 0 0 1) scaled false 1 n n ++ (f i).compute (J i 0 0 (-1)) scaled false (-1) n n ++ q := by
        intro i
        unfold Fft3.trial passes
        rw [hj, List.range_succ_eq_map, List.flatMap_cons]
        simp only [directions, h0, ne_eq, not_true_eq_false, if_false, List.append_assoc]
        exact ⟨_, rfl⟩
      choose q hq using hq
      exact over_fails S' e (fun r => J r 0 0 (-1)) scaled s2 hb h4 fun i _ => hq i
    · have hq : ∀ i, ∃ q, (f i).trial (J i) scaled false t.niter t.flag t.tflag n =
          [] ++ (f i).compute (J i 0 0 (-1)) scaled false (-1) n n ++ q := by
        intro i
        unfold Fft3.trial passes
        rw [hj, List.range_succ_eq_map, List.flatMap_cons]
        simp only [directions, h0, List.append_assoc, List.nil_append, ne_eq, show ¬(-1 : Int) = 0 by decide,
          not_false_eq_true, if_true]
        exact ⟨_, rfl⟩
      choose q hq using hq
      exact over_fails S' e (fun r => J r 0 0 (-1)) scaled (Step.nil m) hb h4 fun i _ => hq i
  obtain ⟨k, c', hrun, hfail⟩ := hex
  exact ⟨fun m' T => T.safe k c' hrun 1 hfail, k, c', hrun, hfail⟩

example (R : Rounding rnd) : ∃ a r, overOpt.args rnd 2 = some a ∧
    tune (fun _ => 12) (clock 1 []) (clock 1 []) false ⟨0, 5, 0, 0⟩ newTuneSt = some (.ok r) := by
  have hsm : overOpt.Small 2 := by simp [overOpt, Opt3.Small]
  have h2 : Supported 2 := supported_of (k := 1) (by decide) (by decide)
  have h3 : Supported 3 := supported_of (k := 1) (by decide) (by decide)
  obtain ⟨a, ha, -⟩ := C60_args_valid R overOpt_accepted hsm h3 h2 h2
  obtain ⟨r, e⟩ := C32_defined (fs := fun _ => 12) (root := clock 1 []) (own := clock 1 []) (sf := false)
    (t := ⟨0, 5, 0, 0⟩) newTuneSt timeFp_id (by decide) (by decide) (by norm_num [clock]) (by norm_num [clock, took, timeOf])
    (by norm_num [clock, took, timeOf, intMax]) (clock_big (by norm_num [tuneBIG]))
  exact ⟨a, r, ha, e⟩

end Driver

end FftMpi
