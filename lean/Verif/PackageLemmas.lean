import Verif.Package
import Verif.Refine
import Verif.Fft3dData
import Verif.Fft3d32Main
import Verif.Fft2d32Main

/-!
# The packages do what KISS does

Wherever the code for KISS has a defined result, the code for the other packages has the same one, within the
conditions of the libraries (`Usable`).
-/

noncomputable section

namespace FftMpi

/-! ## The specification of the libraries determines the result -/

theorem BatchSpec.unique {n h : Nat} {s d : Int} {b : Bool} {data x y : Mem ℂ}
    (hx : BatchSpec n h s d b data x) (hy : BatchSpec n h s d b data y) : x = y := by
  funext a
  by_cases ha : ∃ t < h, ∃ k < n, a = t * d + k * s
  · obtain ⟨t, ht, k, hk, rfl⟩ := ha
    rw [hx.lines t ht k hk, hy.lines t ht k hk]
  · have : ∀ t < h, ∀ k < n, a ≠ t * d + k * s := fun t ht k hk e => ha ⟨t, ht, k, hk, e⟩
    rw [hx.frame a this, hy.frame a this]

theorem BatchSpec.batch_eq {n h : Nat} {s d : Int} {b : Bool} {data x : Mem ℂ}
    (hx : BatchSpec n h s d b data x) : batch n h s d b data = some x := by
  have he : ∃ y, BatchSpec n h s d b data y := ⟨x, hx⟩
  unfold batch
  rw [dif_pos he, he.choose_spec.unique hx]

theorem batch_spec {n h : Nat} {s d : Int} {b : Bool} {data x : Mem ℂ}
    (hx : batch n h s d b data = some x) : BatchSpec n h s d b data x := by
  unfold batch at hx
  split at hx
  · rename_i he
    obtain rfl := Option.some.inj hx
    exact he.choose_spec
  · cases hx

/-! ## What a run of KISS tells about the memory -/

theorem copy1_dom {α : Type} {src dst d : Mem α} {x y : Int} (h : copy1 src dst x y = some d) :
    (dst x).isSome ∧ ∀ a, (d a).isSome = (dst a).isSome := by
  unfold copy1 at h
  obtain ⟨v, -, h⟩ := Option.bind_eq_some_iff.mp h
  unfold Mem.set at h
  split at h
  · rename_i hx
    cases h
    refine ⟨hx, fun a => ?_⟩
    by_cases ha : a = x
    · subst ha; simp [hx]
    · rw [Function.update_of_ne ha]
  · cases h

theorem forFrom_copy_dom {α : Type} {src : Mem α} (o s : Int) (k : Nat) : ∀ (i : Int) (dst d : Mem α),
    forFrom i k (fun t m => copy1 src m (o + t) (s + t)) dst = some d →
      (∀ j < k, (dst (o + i + (j : Nat))).isSome) ∧ ∀ a, (d a).isSome = (dst a).isSome := by
  induction k with
  | zero =>
    intro i dst d h
    obtain rfl := Option.some.inj h
    exact ⟨fun j hj => absurd hj (by omega), fun _ => rfl⟩
  | succ k ih =>
    intro i dst d h
    obtain ⟨x, h1, h2⟩ := Option.bind_eq_some_iff.mp h
    obtain ⟨g1, g2⟩ := copy1_dom h1
    obtain ⟨g3, g4⟩ := ih _ _ _ h2
    refine ⟨fun j hj => ?_, fun a => (g4 a).trans (g2 a)⟩
    cases j with
    | zero => simpa using g1
    | succ j =>
      have := g3 j (by omega)
      rw [g2] at this
      have e : o + i + ((j + 1 : Nat) : Int) = o + (i + 1) + (j : Nat) := by push_cast; ring
      rw [e]; exact this

theorem kissIn_dom {st : KissState} {j j' : Int → ℂ} {data d : Mem ℂ} {o : Int}
    (h : kissIn st j j' data o 1 = some d) :
    (∀ k < st.nfft, (data (o + (k : Nat))).isSome) ∧ ∀ a, (d a).isSome = (data a).isSome := by
  unfold kissIn memcpyM at h
  obtain ⟨tmp, -, h⟩ := Option.bind_eq_some_iff.mp h
  rw [if_neg (by omega), forN_natCast] at h
  obtain ⟨h1, h2⟩ := forFrom_copy_dom _ _ _ _ _ _ h
  exact ⟨fun k hk => by simpa using h1 k hk, h2⟩

/-- A loop over lines that has a result has visited all of them. -/
theorem forPtr_eqLines {σ : Type} (Q : σ → σ → Prop) (refl : ∀ s, Q s s)
    (trans : ∀ s t u, Q s t → Q t u → Q s u) {body : Int → σ → Option σ} {st : Int} (hst : 0 < st)
    (hQ : ∀ p s s', body p s = some s' → Q s s') :
    ∀ (N : Nat) (p : Int) (s s' : σ),
      forPtr p (p + N * st) st body s = some s' →
      Q s s' ∧ ∀ t < N, ∃ x y, Q s x ∧ body (p + t * st) x = some y := by
  intro N
  induction N with
  | zero =>
    intro p s s' h
    rw [forPtr, dif_neg (by simp)] at h
    obtain rfl := Option.some.inj h
    exact ⟨refl _, fun t ht => absurd ht (by omega)⟩
  | succ N ih =>
    intro p s s' h
    have hpos : (0 : Int) ≤ N * st := by positivity
    have e : p + ((N + 1 : Nat) : Int) * st = p + st + N * st := by push_cast; ring
    rw [e, forPtr, dif_pos (by omega), dif_pos hst] at h
    obtain ⟨x, h1, h2⟩ := Option.bind_eq_some_iff.mp h
    obtain ⟨g1, g2⟩ := ih (p + st) x s' h2
    refine ⟨trans _ _ _ (hQ _ _ _ h1) g1, fun t ht => ?_⟩
    cases t with
    | zero => exact ⟨s, x, refl _, by simpa using h1⟩
    | succ t =>
      obtain ⟨y, z, k1, k2⟩ := g2 t (by omega)
      refine ⟨y, z, trans _ _ _ (hQ _ _ _ h1) k1, ?_⟩
      have e : p + ((t + 1 : Nat) : Int) * st = p + st + t * st := by push_cast; ring
      rw [e]; exact k2

/-- If `perform_ffts` with KISS has a result, then the lines were accessible. -/
theorem performFfts_access {plan : Fft1d} {n N : Nat} (hp : PlanOK plan n N) (J : Junk) (flag : Int)
    {data d : Mem ℂ} (h : performFfts J flag plan data = some d) :
    ∀ t < N, ∀ j < n, (data (t * n + j)).isSome := by
  have main : ∀ (back : Bool) (st : KissState), kissAlloc n back = some st →
      forPtr 0 plan.total plan.length (fun offset d =>
          kissIn st (J offset).1 (J offset).2 d offset 1) data = some d →
      ∀ t < N, ∀ j < n, (data (t * n + j)).isSome := by
    intro back st hst h t ht j hj
    have hn := hp.pos
    have hs := hp.small
    obtain ⟨st', h1, h2, -⟩ := kissAlloc_ok (n := n) (by omega) (by omega) back
    rw [hst] at h1
    obtain rfl := Option.some.inj h1
    rw [hp.total, hp.length] at h
    have hpos : (0 : Int) < n := by omega
    obtain ⟨-, g⟩ := forPtr_eqLines (fun (x y : Mem ℂ) => ∀ a, (y a).isSome = (x a).isSome)
      (fun _ _ => rfl) (fun _ _ _ h1 h2 a => (h2 a).trans (h1 a)) hpos
      (fun p s s' hb => (kissIn_dom hb).2) N 0 data d (by simpa using h)
    obtain ⟨x, y, k1, k2⟩ := g t ht
    have := (kissIn_dom k2).1 j (by rw [h2]; exact hj)
    rw [k1] at this
    simpa using this
  unfold performFfts at h
  split at h
  · exact main false _ hp.fwd h
  · exact main true _ hp.bwd h

/-- The transforms of KISS satisfy the specification of the libraries. -/
theorem performFfts_batch {plan : Fft1d} {n N : Nat} (hp : PlanOK plan n N) (J : Junk) (flag : Int)
    {data d : Mem ℂ} (h : performFfts J flag plan data = some d) :
    BatchSpec n N 1 n (decide (flag ≠ 1)) data d := by
  have acc := performFfts_access hp J flag h
  obtain ⟨d', h1, h2, h3⟩ := performFfts_ok hp J flag data (fun t j => (data (t * n + j)).getD 0) (by
    intro t ht j hj
    obtain ⟨v, hv⟩ := Option.isSome_iff_exists.mp (acc t ht j hj)
    simp [hv])
  rw [h] at h1
  obtain rfl := Option.some.inj h1
  have hn := hp.pos
  refine ⟨fun t ht j hj => by simpa using acc t ht j hj, fun t ht k hk => ?_, fun a ha => ?_⟩
  · simpa using h2 t ht k hk
  · apply h3
    by_contra hc
    obtain ⟨c1, c2⟩ := not_or.mp hc
    have hnpos : (0 : Int) < n := by omega
    have t1 : 0 ≤ a / n := Int.ediv_nonneg (by omega) hnpos.le
    have t2 : a / n < (N : Int) := Int.ediv_lt_of_lt_mul hnpos (by omega)
    have t3 := Int.emod_nonneg a hnpos.ne'
    have t4 := Int.emod_lt_of_pos a hnpos
    refine ha (a / n).toNat (by omega) (a % n).toNat (by omega) ?_
    rw [Int.toNat_of_nonneg t1, Int.toNat_of_nonneg t3]
    have := Int.mul_ediv_add_emod a n
    linarith [mul_comm (n : Int) (a / n)]

/-! ## One plan -/

/-- The plan of package `b` for `n` transforms of length `len`. -/
def libPlan (b : Package) (n len total : Int) : LibPlan :=
  match b with
  | .mkl => .mkl (mklPlan len total)
  | .fftw2 => .fftw2 (fftw2Plan len false) (fftw2Plan len true)
  | .fftw3 => .fftw3 (fftw3Plan len n false) (fftw3Plan len n true)

/-- `pl` is the `FFT1d` of package `b` where KISS has `plan`. -/
structure LibOf (b : Package) (plan : Fft1d) (pl : Fft1dL) : Prop where
  n : pl.n = plan.n
  length : pl.length = plan.length
  total : pl.total = plan.total
  whole : plan.total = plan.n * plan.length
  plan : pl.plan = libPlan b pl.n pl.length pl.total

/-- The conditions of the library for the use of a plan on an array. -/
def Fft1dL.Usable (b : Package) (al : Bool) (pl : Fft1dL) : Prop :=
  (b = .mkl → 1 ≤ pl.n) ∧ (b = .fftw3 → al = true)

theorem performFftsL_refines {b : Package} {plan : Fft1d} {pl : Fft1dL} {n N : Nat} (hp : PlanOK plan n N)
    (hl : LibOf b plan pl) {al : Bool} (hu : pl.Usable b al) (J : Junk) (flag : Int) {data d : Mem ℂ}
    (h : performFfts J flag plan data = some d) : performFftsL al flag pl data = some d := by
  have hb := (performFfts_batch hp J flag h).batch_eq
  have hn := hp.pos
  have hlen : pl.length = n := by rw [hl.length, hp.length]
  have htot : pl.total = N * n := by rw [hl.total, hp.total]
  have hN : pl.n = N := by
    have := hl.whole
    rw [hp.total, hp.length] at this
    rw [hl.n]
    exact (mul_right_cancel₀ (by omega : (n : Int) ≠ 0) this).symm
  unfold performFftsL
  rw [hl.plan, hlen, hN, htot]
  have hdiv : ((N : Int) * n).tdiv n = N := Int.mul_tdiv_cancel _ (by omega)
  cases b with
  | mkl =>
    have h1 : 1 ≤ (N : Int) := by rw [← hN]; exact hu.1 rfl
    simp only [libPlan, dftiCompute, mklPlan, dftiCreate, hdiv]
    have hc : 1 ≤ (n : Int) ∧ 1 ≤ (N : Int) ∧ True ∧ True := ⟨by omega, h1, trivial, trivial⟩
    rw [if_pos hc, if_pos hc]
    by_cases hf : flag = 1
    · rw [if_pos hf]; simpa [hf] using hb
    · rw [if_neg hf]; simpa [hf] using hb
  | fftw2 =>
    simp only [libPlan, fftw2, fftw2Plan]
    have hc : 1 ≤ (n : Int) ∧ 0 ≤ (N : Int) ∧ True := ⟨by omega, by omega, trivial⟩
    rw [if_pos hc, if_pos hc]
    by_cases hf : flag = 1
    · rw [if_pos hf]; simpa [hf] using hb
    · rw [if_neg hf]; simpa [hf] using hb
  | fftw3 =>
    simp only [libPlan, fftw3, fftw3Plan]
    have ha := hu.2 rfl
    have hc : 1 ≤ (n : Int) ∧ 0 ≤ (N : Int) ∧ True ∧ True ∧ True ∧ (True → al = true) :=
      ⟨by omega, by omega, trivial, trivial, trivial, fun _ => ha⟩
    rw [if_pos hc, if_pos hc]
    by_cases hf : flag = 1
    · rw [if_pos hf]; simpa [hf] using hb
    · rw [if_neg hf]; simpa [hf] using hb

theorem performLocL_refines {b : Package} {plan : Fft1d} {pl : Fft1dL} {n N : Nat} (hp : PlanOK plan n N)
    (hl : LibOf b plan pl) {al : Nat → Bool} {ao : Nat} (hu : pl.Usable b (al ao)) (J : Junk) (flag : Int) :
    ∀ x y, performLoc J flag plan ao x = some y → performLocL al flag pl ao x = some y := by
  intro x y h
  unfold performLoc at h
  obtain ⟨c, h1, rfl⟩ := Option.map_eq_some_iff.mp h
  unfold performLocL
  rw [performFftsL_refines hp hl hu J flag h1]
  rfl

/-! ## Scaling -/

theorem scaleMkl_eq (norm : ℝ) (normnum : Int) (data : Mem ℝ) :
    scaleMkl norm normnum data = scaleFfts norm normnum data := by
  unfold scaleMkl scaleFfts
  congr 1
  funext i d
  simp only [Option.bind_eq_bind]
  cases h1 : d (2 * i) with
  | none => rfl
  | some re =>
    have hne : 2 * i + 1 ≠ 2 * i := by omega
    simp only [Option.bind_some, Mem.set, h1, Option.isSome_some, if_true, Function.update_of_ne hne]

theorem scaleFftw3_eq (norm : ℝ) (normnum : Int) (data : Mem ℝ) :
    scaleFftw3 norm normnum data = scaleFfts norm normnum data := by
  unfold scaleFftw3 scaleFfts forN
  have key : ∀ (k : Nat) (i : Int) (d : Mem ℝ),
      (forFrom i k (fun _ (s : Int × Mem ℝ) => do
        let x ← s.2 s.1
        let d ← s.2.set s.1 (x * norm)
        let p := s.1 + 1
        let y ← d p
        let d ← d.set p (y * norm)
        some (p + 1, d)) (2 * i, d)).map Prod.snd =
      forFrom i k (fun i d => do
        let re ← d (2 * i)
        let d ← d.set (2 * i) (re * norm)
        let im ← d (2 * i + 1)
        d.set (2 * i + 1) (im * norm)) d := by
    intro k
    induction k with
    | zero => intro i d; rfl
    | succ k ih =>
      intro i d
      simp only [forFrom, Option.bind_eq_bind]
      cases h1 : d (2 * i) with
      | none => rfl
      | some x =>
        simp only [Option.bind_some]
        cases h2 : d.set (2 * i) (x * norm) with
        | none => rfl
        | some d1 =>
          simp only [Option.bind_some]
          cases h3 : d1 (2 * i + 1) with
          | none => rfl
          | some y =>
            simp only [Option.bind_some]
            cases h4 : d1.set (2 * i + 1) (y * norm) with
            | none => rfl
            | some d2 =>
              simp only [Option.bind_some]
              have := ih (i + 1) d2
              simp only [Option.bind_eq_bind] at this
              rw [← this]
              congr 2
              rw [show 2 * i + 1 + 1 = 2 * (i + 1) by ring]
  have := key normnum.toNat 0 data
  simpa using this

theorem scaleLocL_eq (b : Package) (norm : ℝ) (normnum : Int) (ao : Nat) (m : LMem ℝ) :
    scaleLocL b norm normnum ao m = scaleLoc norm normnum ao m := by
  unfold scaleLocL scaleLoc scaleFftsL
  cases b with
  | mkl => simp only [scaleMkl_eq]
  | fftw2 => rfl
  | fftw3 => simp only [scaleFftw3_eq]

/-! ## FFT3d -/

/-- `g` is the object of package `b` where KISS has `f`. -/
structure Fft3L.Like (b : Package) (g : Fft3L) (f : Fft3 ℝ) : Prop where
  same : g.same = f.same
  prefast : g.prefast = f.prefast
  fastmid : g.fastmid = f.fastmid
  midslow : g.midslow = f.midslow
  postslow : g.postslow = f.postslow
  preslow : g.preslow = f.preslow
  slowmid : g.slowmid = f.slowmid
  midfast : g.midfast = f.midfast
  postfast : g.postfast = f.postfast
  insize : g.insize = f.insize
  outsize : g.outsize = f.outsize
  fftsize : g.fftsize = f.fftsize
  sendsize : g.sendsize = f.sendsize
  recvsize : g.recvsize = f.recvsize
  norm : g.norm = f.norm
  normnum : g.normnum = f.normnum
  fftFast : LibOf b f.fftFast g.fftFast
  fftMid : LibOf b f.fftMid g.fftMid
  fftSlow : LibOf b f.fftSlow g.fftSlow

theorem setupFftsL_like {b : Package} {c : Create} {x y z : Fft1d} (h : setupFfts c = some (x, y, z))
    (hx : x.length = c.a.nfast) (hy : y.length = c.a.nmid) (hz : z.length = c.a.nslow) :
    LibOf b x (setupFftsL b c).1 ∧ LibOf b y (setupFftsL b c).2.1 ∧ LibOf b z (setupFftsL b c).2.2 := by
  obtain ⟨⟨a1, a2⟩, ⟨b1, b2⟩, c1, c2⟩ := setupFfts_shape h
  have e1 : (setupFftsL b c).1.n = x.n := by rw [a1]; rfl
  have e2 : (setupFftsL b c).2.1.n = y.n := by rw [b1]; rfl
  have e3 : (setupFftsL b c).2.2.n = z.n := by rw [c1]; rfl
  refine ⟨⟨e1, hx.symm, ?_, by rw [a2, hx], ?_⟩, ⟨e2, hy.symm, ?_, by rw [b2, hy], ?_⟩,
    ⟨e3, hz.symm, ?_, by rw [c2, hz], ?_⟩⟩
  · rw [a2, ← e1]; rfl
  · cases b <;> rfl
  · rw [b2, ← e2]; rfl
  · cases b
    · rfl
    · simp only [setupFftsL, libPlan]
      split_ifs with h1 <;> simp [h1]
    · rfl
  · rw [c2, ← e3]; rfl
  · cases b
    · rfl
    · simp only [setupFftsL, libPlan]
      split_ifs with h1 h2 h3 h4 <;> simp_all
    · rfl

theorem setupMainL_like {b : Package} {c : Create} (h1 : 2 ≤ c.a.nfast ∧ c.a.nfast < 2 ^ 31)
    (h2 : 2 ≤ c.a.nmid ∧ c.a.nmid < 2 ^ 31) (h3 : 2 ≤ c.a.nslow ∧ c.a.nslow < 2 ^ 31) {f : Fft3 ℝ}
    (h : setupMain c = some f) : ∃ g, setupMainL b c = some g ∧ g.Like b f := by
  obtain ⟨x, y, z, k1, k2, k3, k4⟩ := setupFfts_ok (c := c) h1 h2 h3
  obtain ⟨l1, l2, l3⟩ := setupFftsL_like (b := b) k1 k2.1 k3.1 k4.1
  unfold setupMain at h
  rw [k1] at h
  unfold setupMainL
  simp only [Option.bind_eq_bind] at h ⊢
  obtain ⟨⟨fw, s⟩, hf, h⟩ := Option.bind_eq_some_iff.mp h
  rw [hf]
  simp only [Option.bind_some] at h ⊢
  by_cases hs : inoutSame c.P c.a = true
  · rw [if_pos hs] at h ⊢
    refine ⟨_, rfl, ?_⟩
    obtain rfl := Option.some.inj h
    constructor <;> first | rfl | assumption
  · rw [if_neg hs] at h ⊢
    obtain ⟨x, hi, h⟩ := Option.bind_eq_some_iff.mp h
    rw [hi]
    refine ⟨_, rfl, ?_⟩
    obtain rfl := Option.some.inj h
    constructor <;> first | rfl | assumption

theorem fft3SetupL_like {b : Package} {P me : Nat} {a : Args3} {st : Settings} (hv : a.Valid P) {f : Fft3 ℝ}
    (h : fft3Setup P me a st = some (.ok f)) :
    ∃ g, fft3SetupL b P me a st = some (.ok g) ∧ g.Like b f := by
  unfold fft3Setup at h
  unfold fft3SetupL
  cases hc : setupCheck P a with
  | some e => rw [hc] at h; simp at h
  | none =>
    rw [hc] at h
    simp only [Option.bind_eq_bind] at h ⊢
    obtain ⟨g, hg, h⟩ := Option.bind_eq_some_iff.mp h
    obtain ⟨f', hf, h⟩ := Option.bind_eq_some_iff.mp h
    simp only [Option.some.injEq, Except.ok.injEq] at h
    subst h
    obtain ⟨x, h1, h2⟩ := setupMainL_like (b := b) (c := { P, me, a, st, g }) hv.fast hv.mid hv.slow hf
    exact ⟨x, by rw [hg]; simp [h1], h2⟩

/-- The conditions of the library on one rank: with MKL every dimension has at least one 1d FFT to do here,
with FFTW3 array `ao` is aligned. -/
def Fft3L.Usable (b : Package) (g : Fft3L) (al : Nat → Bool) (ao : Nat) : Prop :=
  (b = .mkl → 1 ≤ g.fftFast.n ∧ 1 ≤ g.fftMid.n ∧ 1 ≤ g.fftSlow.n) ∧ (b = .fftw3 → al ao = true)

theorem Fft3L.Like.refines {b : Package} {g : Fft3L} {f : Fft3 ℝ} (h : g.Like b f) {n1 N1 n2 N2 n3 N3 : Nat}
    (p1 : PlanOK f.fftFast n1 N1) (p2 : PlanOK f.fftMid n2 N2) (p3 : PlanOK f.fftSlow n3 N3)
    {al : Nat → Bool} {ao : Nat} (hu : g.Usable b al ao) (J : Nat → Junk) (scaled remaponly : Bool)
    (flag : Int) (ai : Nat) :
    ProgRefines (f.compute J scaled remaponly flag ai ao) (g.compute b al scaled remaponly flag ai ao) ∧
    ProgRefines (f.only1d J flag ao) (g.only1d al flag ao) := by
  have r1 : ProgRefines [.loc (performLoc (J 0) flag f.fftFast ao)]
      [.loc (performLocL al flag g.fftFast ao)] :=
    .loc (performLocL_refines p1 h.fftFast ⟨fun e => (hu.1 e).1, hu.2⟩ _ _)
  have r2 : ProgRefines [.loc (performLoc (J 1) flag f.fftMid ao)]
      [.loc (performLocL al flag g.fftMid ao)] :=
    .loc (performLocL_refines p2 h.fftMid ⟨fun e => (hu.1 e).2.1, hu.2⟩ _ _)
  have r3 : ProgRefines [.loc (performLoc (J 2) flag f.fftSlow ao)]
      [.loc (performLocL al flag g.fftSlow ao)] :=
    .loc (performLocL_refines p3 h.fftSlow ⟨fun e => (hu.1 e).2.2, hu.2⟩ _ _)
  have r4 : ProgRefines [.loc (scaleLoc f.norm f.normnum ao)] [.loc (scaleLocL b f.norm f.normnum ao)] :=
    .loc fun x y hxy => by rw [scaleLocL_eq]; exact hxy
  refine ⟨?_, (r1.append r2).append r3⟩
  unfold Fft3.compute Fft3L.compute
  rw [h.same, h.prefast, h.fastmid, h.midslow, h.postslow, h.preslow, h.slowmid, h.midfast, h.postfast,
    h.insize, h.outsize, h.norm, h.normnum]
  refine ProgRefines.append ?_ ?_
  · split_ifs
    · exact .refl _
    · exact ((ProgRefines.refl _).append ((((r1.append (.refl _)).append r2).append (.refl _)).append r3)).append
        (.refl _)
    · exact .refl _
    · exact ((ProgRefines.refl _).append ((((r3.append (.refl _)).append r2).append (.refl _)).append r1)).append
        (.refl _)
  · split_ifs
    · exact r4
    · exact .refl _

/-! ## FFT2d -/

/-- `g` is the object of package `b` where KISS has `f`. -/
structure Fft2L.Like (b : Package) (g : Fft2L) (f : Fft2 ℝ) : Prop where
  same : g.same = f.same
  prefast : g.prefast = f.prefast
  fastslow : g.fastslow = f.fastslow
  postslow : g.postslow = f.postslow
  preslow : g.preslow = f.preslow
  slowfast : g.slowfast = f.slowfast
  postfast : g.postfast = f.postfast
  insize : g.insize = f.insize
  outsize : g.outsize = f.outsize
  fftsize : g.fftsize = f.fftsize
  sendsize : g.sendsize = f.sendsize
  recvsize : g.recvsize = f.recvsize
  norm : g.norm = f.norm
  normnum : g.normnum = f.normnum
  fftFast : LibOf b f.fftFast g.fftFast
  fftSlow : LibOf b f.fftSlow g.fftSlow

theorem setupFftsL2_like {b : Package} {c : Create2} {x z : Fft1d} (h : setupFfts2 c = some (x, z))
    (hx : x.length = c.a.nfast) (hz : z.length = c.a.nslow) :
    LibOf b x (setupFftsL2 b c).1 ∧ LibOf b z (setupFftsL2 b c).2 := by
  obtain ⟨⟨a1, a2⟩, c1, c2⟩ := setupFfts2_shape h
  have e1 : (setupFftsL2 b c).1.n = x.n := by rw [a1]; rfl
  have e3 : (setupFftsL2 b c).2.n = z.n := by rw [c1]; rfl
  refine ⟨⟨e1, hx.symm, ?_, by rw [a2, hx], ?_⟩, ⟨e3, hz.symm, ?_, by rw [c2, hz], ?_⟩⟩
  · rw [a2, ← e1]; rfl
  · cases b <;> rfl
  · rw [c2, ← e3]; rfl
  · cases b
    · rfl
    · simp only [setupFftsL2, libPlan]
      split_ifs with h1 <;> simp [h1]
    · rfl

theorem setupMainL2_like {b : Package} {c : Create2} (h1 : 2 ≤ c.a.nfast ∧ c.a.nfast < 2 ^ 31)
    (h3 : 2 ≤ c.a.nslow ∧ c.a.nslow < 2 ^ 31) {f : Fft2 ℝ}
    (h : setupMain2 c = some f) : ∃ g, setupMainL2 b c = some g ∧ g.Like b f := by
  obtain ⟨x, z, k1, k2, k4⟩ := setupFfts2_ok (c := c) h1 h3
  obtain ⟨l1, l3⟩ := setupFftsL2_like (b := b) k1 k2.1 k4.1
  unfold setupMain2 at h
  rw [k1] at h
  unfold setupMainL2
  simp only [Option.bind_eq_bind] at h ⊢
  obtain ⟨⟨fw, s⟩, hf, h⟩ := Option.bind_eq_some_iff.mp h
  rw [hf]
  simp only [Option.bind_some] at h ⊢
  by_cases hs : inoutSame2 c.P c.a = true
  · rw [if_pos hs] at h ⊢
    refine ⟨_, rfl, ?_⟩
    obtain rfl := Option.some.inj h
    constructor <;> first | rfl | assumption
  · rw [if_neg hs] at h ⊢
    obtain ⟨x, hi, h⟩ := Option.bind_eq_some_iff.mp h
    rw [hi]
    refine ⟨_, rfl, ?_⟩
    obtain rfl := Option.some.inj h
    constructor <;> first | rfl | assumption

theorem fft2SetupL_like {b : Package} {w : Int} {P me : Nat} {a : Args2} {st : Settings} (hv : a.Valid P)
    {f : Fft2 ℝ} (h : fft2Setup w P me a st = some (.ok f)) :
    ∃ g, fft2SetupL b w P me a st = some (.ok g) ∧ g.Like b f := by
  unfold fft2Setup at h
  unfold fft2SetupL
  cases hc : setupCheck2 P a with
  | some e => rw [hc] at h; simp at h
  | none =>
    rw [hc] at h
    simp only [Option.bind_eq_bind] at h ⊢
    obtain ⟨g, hg, h⟩ := Option.bind_eq_some_iff.mp h
    obtain ⟨f', hf, h⟩ := Option.bind_eq_some_iff.mp h
    simp only [Option.some.injEq, Except.ok.injEq] at h
    subst h
    obtain ⟨x, h1, h2⟩ := setupMainL2_like (b := b) (c := { w, P, me, a, st, g }) hv.fast hv.slow hf
    exact ⟨x, by rw [hg]; simp [h1], h2⟩

/-- The conditions of the library on one rank. -/
def Fft2L.Usable (b : Package) (g : Fft2L) (al : Nat → Bool) (ao : Nat) : Prop :=
  (b = .mkl → 1 ≤ g.fftFast.n ∧ 1 ≤ g.fftSlow.n) ∧ (b = .fftw3 → al ao = true)

theorem Fft2L.Like.refines {b : Package} {g : Fft2L} {f : Fft2 ℝ} (h : g.Like b f) {n1 N1 n3 N3 : Nat}
    (p1 : PlanOK f.fftFast n1 N1) (p3 : PlanOK f.fftSlow n3 N3)
    {al : Nat → Bool} {ao : Nat} (hu : g.Usable b al ao) (J : Nat → Junk) (scaled remaponly : Bool)
    (flag : Int) (ai : Nat) :
    ProgRefines (f.compute J scaled remaponly flag ai ao) (g.compute b al scaled remaponly flag ai ao) ∧
    ProgRefines (f.only1d J flag ao) (g.only1d al flag ao) := by
  have r1 : ProgRefines [.loc (performLoc (J 0) flag f.fftFast ao)]
      [.loc (performLocL al flag g.fftFast ao)] :=
    .loc (performLocL_refines p1 h.fftFast ⟨fun e => (hu.1 e).1, hu.2⟩ _ _)
  have r3 : ProgRefines [.loc (performLoc (J 1) flag f.fftSlow ao)]
      [.loc (performLocL al flag g.fftSlow ao)] :=
    .loc (performLocL_refines p3 h.fftSlow ⟨fun e => (hu.1 e).2, hu.2⟩ _ _)
  have r4 : ProgRefines [.loc (scaleLoc f.norm f.normnum ao)] [.loc (scaleLocL b f.norm f.normnum ao)] :=
    .loc fun x y hxy => by rw [scaleLocL_eq]; exact hxy
  refine ⟨?_, r1.append r3⟩
  unfold Fft2.compute Fft2L.compute
  rw [h.same, h.prefast, h.fastslow, h.postslow, h.preslow, h.slowfast, h.postfast,
    h.insize, h.outsize, h.norm, h.normnum]
  refine ProgRefines.append ?_ ?_
  · split_ifs
    · exact .refl _
    · exact ((ProgRefines.refl _).append ((r1.append (.refl _)).append r3)).append (.refl _)
    · exact .refl _
    · exact ((ProgRefines.refl _).append ((r3.append (.refl _)).append r1)).append (.refl _)
  · split_ifs
    · exact r4
    · exact .refl _

end FftMpi
