import Verif.FftFl
import Verif.KissFlLemmas
import Verif.PropsFft3d
import Verif.PropsFft2d

/-!
# `setup` and `compute` with the arithmetic as a parameter: lemmas
-/

noncomputable section

namespace FftMpi

/-- The transform of one line of `n` points by the code. -/
def kissLine (ar : Arith) (n : Nat) (back : Bool) (x : Nat → ℂ) (k : Nat) : ℂ :=
  match kissAllocF ar n back with
  | none => 0
  | some st => ar.work st st.factors 1 x k

/-- The plan of 1d FFTs of length `n` on `N` lines. -/
structure PlanOKF (ar : Arith) (plan : Fft1d) (n N : Nat) : Prop where
  length : plan.length = n
  total : plan.total = N * n
  pos : 1 ≤ n
  small : n < 2 ^ 31
  fwd : kissAllocF ar n false = some plan.planForward
  bwd : kissAllocF ar n true = some plan.planBackward

theorem performFftsF_ok {ar : Arith} {plan : Fft1d} {n N : Nat} (hp : PlanOKF ar plan n N) (J : Junk) (flag : Int) :
    LinesOK (performFftsF ar J flag plan) (kissLine ar n (decide (flag ≠ 1))) n N := by
  have main : ∀ (back : Bool) (st : KissState), kissAllocF ar n back = some st →
      LinesOK (forPtr 0 plan.total plan.length (fun offset d =>
          kissInF ar st (J offset).1 (J offset).2 d offset 1)) (kissLine ar n back) n N := by
    intro back st hst
    rw [hp.total, hp.length]
    refine forPtr_lines hp.pos _ fun o x d hd => ?_
    obtain ⟨st', hst', k1, k2, k3, k4, _⟩ := kissAllocF_ok ar hp.pos (by have := hp.small; omega) back
    rw [hst] at hst'
    cases hst'
    obtain ⟨d', g1, g2, g3⟩ := kissInF_ok ar k3 (by rw [k1]; exact k4) (J o).1 (J o).2 x d o (by rw [k1]; exact hd)
    rw [k1] at g2 g3
    refine ⟨d', g1, fun k hk => ?_, g3⟩
    rw [g2 k hk]
    simp [kissLine, hst]
  intro data x hx
  unfold performFftsF
  by_cases hf : flag = 1
  · rw [if_pos hf]
    have : decide (flag ≠ 1) = false := by simp [hf]
    rw [this]
    exact main false _ hp.fwd data x hx
  · rw [if_neg hf]
    have : decide (flag ≠ 1) = true := by simp [hf]
    rw [this]
    exact main true _ hp.bwd data x hx

/-- `scale_ffts` on the complex numbers. -/
theorem scaleFftsF_ok (ar : Arith) (norm : ℝ) (num : Nat) (data : Mem ℝ) (h : accessible data 0 (2 * num)) :
    ∃ d, scaleFftsF ar norm num data = some d ∧
      (∀ k z, cview data k = some z → 0 ≤ k → k < num → cview d k = some (ar.cscale z (ar.conv norm))) ∧
      (∀ a, (d a).isSome = (data a).isSome) ∧ ∀ a, (a < 0 ∨ 2 * (num : Int) ≤ a) → d a = data a := by
  set fn := ar.conv norm with hfn
  obtain ⟨d, h1, h2, h3⟩ := forN_inv (fun s (d : Mem ℝ) =>
      (∀ a, 0 ≤ a → a < 2 * (s : Int) → d a = (data a).map (ar.mul · fn)) ∧
      (∀ a, (a < 0 ∨ 2 * (s : Int) ≤ a) → d a = data a))
    (fun i d => do
      let re ← d (2 * i)
      let d ← d.set (2 * i) (ar.mul re fn)
      let im ← d (2 * i + 1)
      d.set (2 * i + 1) (ar.mul im fn)) num data
    ⟨fun a h0 h1 => absurd h1 (by push_cast; omega), fun a _ => rfl⟩
    (by
      intro s hs d ⟨h1, h2⟩
      obtain ⟨x, hx⟩ := Option.isSome_iff_exists.mp (h (2 * s) (by omega) (by omega))
      obtain ⟨y, hy⟩ := Option.isSome_iff_exists.mp (h (2 * s + 1) (by omega) (by omega))
      have dx : d (2 * s) = some x := by rw [h2 _ (by omega), hx]
      have dy : d (2 * s + 1) = some y := by rw [h2 _ (by omega), hy]
      have hne : (2 * (s : Int) + 1) ≠ 2 * s := by omega
      have dy' : Function.update d (2 * (s : Int)) (some (ar.mul x fn)) (2 * s + 1) = some y := by
        rw [Function.update_of_ne hne]; exact dy
      refine ⟨Function.update (Function.update d (2 * (s : Int)) (some (ar.mul x fn))) (2 * s + 1)
        (some (ar.mul y fn)), ?_, ?_, ?_⟩
      · simp only [dx, dy', Option.bind_eq_bind, Option.bind_some,
          Mem.set_eq (show (d (2 * (s : Int))).isSome by rw [dx]; rfl),
          Mem.set_eq (show ((Function.update d (2 * (s : Int)) (some (ar.mul x fn))) (2 * s + 1)).isSome by
            rw [dy']; rfl)]
      · intro a h0 ha
        by_cases a1 : a = 2 * s + 1
        · subst a1; simp [hy]
        · rw [Function.update_of_ne a1]
          by_cases a2 : a = 2 * s
          · subst a2; simp [hx]
          · rw [Function.update_of_ne a2]
            exact h1 a h0 (by push_cast at ha; omega)
      · intro a ha
        rw [Function.update_of_ne (by push_cast at ha; omega),
          Function.update_of_ne (by push_cast at ha; omega)]
        exact h2 a (by push_cast at ha; omega))
  refine ⟨d, h1, ?_, ?_, h3⟩
  · intro k z hz hk hkn
    rw [cview_some] at hz ⊢
    rw [h2 _ (by omega) (by omega), h2 _ (by omega) (by omega), hz.1, hz.2]
    exact ⟨rfl, rfl⟩
  · intro a
    by_cases ha : a < 0 ∨ 2 * (num : Int) ≤ a
    · rw [h3 a ha]
    · rw [h2 a (by omega) (by omega)]
      simp

/-- `scale_ffts` on every rank, with all the numbers of the boxes scaled. -/
theorem scaleStepF (e : Bool) (ar : Arith) {P : Nat} {size : Nat → Int} {ao : Nat} {p : Int} {bs : Nat → Box3}
    {X : Grid3} {m : Nat → LMem ℝ} (norm : ℝ) (num : Nat → Int) (hX : Holds P p bs ao X m)
    (hc : ∀ r < P, (bs r).count ≤ num r) (hnum : ∀ r < P, num r ≤ size r)
    (hd : ∀ r < P, accessible ((m r).ub ao) 0 (2 * size r)) (fn : Nat → ℝ) (fnum : Nat → Int)
    (e1 : ∀ r < P, fn r = norm) (e2 : ∀ r < P, fnum r = num r) :
    ∃ m', Step e P size ao (fun r => [.loc (scaleLocF ar (fn r) (fnum r) ao)]) m m' ∧
      Holds P p bs ao (fun i j k => ar.cscale (X i j k) (ar.conv norm)) m' := by
  have key : ∀ r, ∃ d, r < P → scaleFftsF ar (fn r) (fnum r) ((m r).ub ao) = some d ∧
      (∀ k z, cview ((m r).ub ao) k = some z → 0 ≤ k → k < num r →
        cview d k = some (ar.cscale z (ar.conv norm))) ∧
      (∀ a, (d a).isSome = ((m r).ub ao a).isSome) ∧
      ∀ a, (a < 0 ∨ 2 * num r ≤ a) → d a = (m r).ub ao a := by
    intro r
    by_cases hr : r < P
    · have en : (((num r).toNat : Nat) : Int) = num r := by
        have := hc r hr
        have := count_nonneg (bs r)
        omega
      obtain ⟨d, g1, g2, g3, g4⟩ := scaleFftsF_ok ar norm (num r).toNat ((m r).ub ao) (by
        rw [en]
        exact accessible_mono (hd r hr) (by have := hnum r hr; omega))
      rw [en] at g1 g2 g4
      exact ⟨d, fun _ => ⟨by rw [e1 r hr, e2 r hr]; exact g1, g2, g3, g4⟩⟩
    · exact ⟨fun _ => none, fun h => absurd h hr⟩
  choose d hd' using key
  obtain ⟨m', h1, h2⟩ := locStep e (size := size) (ao := ao) (m := m)
    (fun r => scaleLocF ar (fn r) (fnum r) ao) d
    (by intro r hr; simp [scaleLocF, (hd' r hr).1])
    (fun r hr => (hd' r hr).2.2.1)
    (by
      intro r hr x hx
      apply (hd' r hr).2.2.2
      have := hnum r hr
      omega)
  refine ⟨m', h1, ?_⟩
  intro r hr
  rw [holdsBox_cview]
  intro i j k hh
  rw [h2 r hr]
  have g := holdsBox_cview.mp (hX r hr) i j k hh
  have h1 := addr3_range (permute := p) (nqty := 1) (q := 0) hh (by decide)
  have h3 := Box3.count_of_has hh
  have h4 := hc r hr
  exact (hd' r hr).2.1 _ _ g h1.1 (by omega)

/-! ## setup -/

/-- `q` is the plan with rounding where the exact one is `p`. -/
structure FlPlan (ar : Arith) (p q : Fft1d) : Prop where
  length : q.length = p.length
  total : q.total = p.total
  fwd : kissAllocF ar p.length.toNat false = some q.planForward
  bwd : kissAllocF ar p.length.toNat true = some q.planBackward

theorem FlPlan.ok {ar : Arith} {p q : Fft1d} (h : FlPlan ar p q) {n N : Nat} (hp : PlanOK p n N) :
    PlanOKF ar q n N := by
  have e : p.length.toNat = n := by rw [hp.length]; rfl
  exact ⟨h.length.trans hp.length, h.total.trans hp.total, hp.pos, hp.small, by rw [← e]; exact h.fwd,
    by rw [← e]; exact h.bwd⟩

theorem kissAllocF_some (ar : Arith) {n : Int} (h : 2 ≤ n ∧ n < 2 ^ 31) (inv : Bool) :
    ∃ st, kissAllocF ar n.toNat inv = some st := by
  obtain ⟨st, h, _⟩ := kissAllocF_ok ar (n := n.toNat) (by omega) (by omega) inv
  exact ⟨st, h⟩

/-- The three plans. -/
theorem setupFftsF_like (ar : Arith) {c : Create} (h1 : 2 ≤ c.a.nfast ∧ c.a.nfast < 2 ^ 31)
    (h2 : 2 ≤ c.a.nmid ∧ c.a.nmid < 2 ^ 31) (h3 : 2 ≤ c.a.nslow ∧ c.a.nslow < 2 ^ 31)
    {x y z : Fft1d} (h : setupFfts c = some (x, y, z)) :
    ∃ x' y' z', setupFftsF ar c = some (x', y', z') ∧ FlPlan ar x x' ∧ FlPlan ar y y' ∧ FlPlan ar z z' := by
  obtain ⟨x0, y0, z0, k0, ⟨k1, k2, _⟩, ⟨k3, k4, _⟩, ⟨k5, k6, _⟩⟩ := setupFfts_ok h1 h2 h3
  rw [h] at k0
  cases k0
  obtain ⟨ff, hff⟩ := kissAllocF_some ar h1 false
  obtain ⟨fb, hfb⟩ := kissAllocF_some ar h1 true
  obtain ⟨mf, hmf⟩ := kissAllocF_some ar h2 false
  obtain ⟨mb, hmb⟩ := kissAllocF_some ar h2 true
  obtain ⟨sf, hsf⟩ := kissAllocF_some ar h3 false
  obtain ⟨sb, hsb⟩ := kissAllocF_some ar h3 true
  have fin : ∀ {p : Fft1d} {n : Int} {t : Int} {f b : KissState} {q : Int}, p.length = n → p.total = t →
      kissAllocF ar n.toNat false = some f → kissAllocF ar n.toNat true = some b →
      FlPlan ar p { n := q, length := n, total := t, planForward := f, planBackward := b } := by
    intro p n t f b q e1 e2 e3 e4
    subst e1
    exact ⟨rfl, e2.symm, e3, e4⟩
  unfold setupFftsF
  by_cases e1 : c.a.nmid = c.a.nfast
  · have hmf' : kissAllocF ar c.a.nmid.toNat false = some ff := by rw [e1]; exact hff
    have hmb' : kissAllocF ar c.a.nmid.toNat true = some fb := by rw [e1]; exact hfb
    by_cases e2 : c.a.nslow = c.a.nfast
    · have hsf' : kissAllocF ar c.a.nslow.toNat false = some ff := by rw [e2]; exact hff
      have hsb' : kissAllocF ar c.a.nslow.toNat true = some fb := by rw [e2]; exact hfb
      simp only [Option.bind_eq_bind, hff, hfb, Option.bind_some, if_pos e1, if_pos e2]
      exact ⟨_, _, _, rfl, fin k1 k2 hff hfb, fin k3 k4 hmf' hmb', fin k5 k6 hsf' hsb'⟩
    · have e3 : ¬ c.a.nslow = c.a.nmid := by omega
      simp only [Option.bind_eq_bind, hff, hfb, hsf, hsb, Option.bind_some, if_pos e1, if_neg e2,
        if_neg e3]
      exact ⟨_, _, _, rfl, fin k1 k2 hff hfb, fin k3 k4 hmf' hmb', fin k5 k6 hsf hsb⟩
  · by_cases e2 : c.a.nslow = c.a.nfast
    · have hsf' : kissAllocF ar c.a.nslow.toNat false = some ff := by rw [e2]; exact hff
      have hsb' : kissAllocF ar c.a.nslow.toNat true = some fb := by rw [e2]; exact hfb
      simp only [Option.bind_eq_bind, hff, hfb, hmf, hmb, Option.bind_some, if_neg e1, if_pos e2]
      exact ⟨_, _, _, rfl, fin k1 k2 hff hfb, fin k3 k4 hmf hmb, fin k5 k6 hsf' hsb'⟩
    · by_cases e3 : c.a.nslow = c.a.nmid
      · have hsf' : kissAllocF ar c.a.nslow.toNat false = some mf := by rw [e3]; exact hmf
        have hsb' : kissAllocF ar c.a.nslow.toNat true = some mb := by rw [e3]; exact hmb
        simp only [Option.bind_eq_bind, hff, hfb, hmf, hmb, Option.bind_some, if_neg e1, if_neg e2,
          if_pos e3]
        exact ⟨_, _, _, rfl, fin k1 k2 hff hfb, fin k3 k4 hmf hmb, fin k5 k6 hsf' hsb'⟩
      · simp only [Option.bind_eq_bind, hff, hfb, hmf, hmb, hsf, hsb, Option.bind_some, if_neg e1,
          if_neg e2, if_neg e3]
        exact ⟨_, _, _, rfl, fin k1 k2 hff hfb, fin k3 k4 hmf hmb, fin k5 k6 hsf hsb⟩

/-- `g` is the object with rounding where the exact one is `f`. -/
structure Fft3.Rounded (ar : Arith) (g f : Fft3 ℝ) (N : Int) : Prop where
  same : g.same = f.same
  prefast : g.prefast = f.prefast
  fastmid : g.fastmid = f.fastmid
  midslow : g.midslow = f.midslow
  postslow : g.postslow = f.postslow
  preslow : g.preslow = f.preslow
  slowmid : g.slowmid = f.slowmid
  midfast : g.midfast = f.midfast
  postfast : g.postfast = f.postfast
  insize : g.insize = f.insize
  outsize : g.outsize = f.outsize
  fftsize : g.fftsize = f.fftsize
  sendsize : g.sendsize = f.sendsize
  recvsize : g.recvsize = f.recvsize
  normnum : g.normnum = f.normnum
  norm : g.norm = ar.ddiv 1 (ar.ofInt N)
  fftFast : FlPlan ar f.fftFast g.fftFast
  fftMid : FlPlan ar f.fftMid g.fftMid
  fftSlow : FlPlan ar f.fftSlow g.fftSlow

theorem setupMainF_like (ar : Arith) {c : Create} (h1 : 2 ≤ c.a.nfast ∧ c.a.nfast < 2 ^ 31)
    (h2 : 2 ≤ c.a.nmid ∧ c.a.nmid < 2 ^ 31) (h3 : 2 ≤ c.a.nslow ∧ c.a.nslow < 2 ^ 31) {f : Fft3 ℝ}
    (h : setupMain c = some f) :
    ∃ g, setupMainF ar c = some g ∧ g.Rounded ar f (c.a.nfast * c.a.nmid * c.a.nslow) := by
  obtain ⟨x, y, z, k1, -⟩ := setupFfts_ok (c := c) h1 h2 h3
  obtain ⟨x', y', z', l0, l1, l2, l3⟩ := setupFftsF_like ar h1 h2 h3 k1
  unfold setupMain at h
  rw [k1] at h
  unfold setupMainF
  rw [l0]
  simp only [Option.bind_eq_bind] at h ⊢
  obtain ⟨⟨fw, s⟩, hf, h⟩ := Option.bind_eq_some_iff.mp h
  rw [hf]
  simp only [Option.bind_some] at h ⊢
  by_cases hs : inoutSame c.P c.a = true
  · rw [if_pos hs] at h ⊢
    refine ⟨_, rfl, ?_⟩
    obtain rfl := Option.some.inj h
    constructor <;> first | rfl | assumption
  · rw [if_neg hs] at h ⊢
    obtain ⟨x, hi, h⟩ := Option.bind_eq_some_iff.mp h
    rw [hi]
    refine ⟨_, rfl, ?_⟩
    obtain rfl := Option.some.inj h
    constructor <;> first | rfl | assumption

theorem fft3SetupF_like (ar : Arith) {P me : Nat} {a : Args3} {st : Settings} (hv : a.Valid P) {f : Fft3 ℝ}
    (h : fft3Setup P me a st = some (.ok f)) :
    ∃ g, fft3SetupF ar P me a st = some (.ok g) ∧ g.Rounded ar f (a.nfast * a.nmid * a.nslow) := by
  unfold fft3Setup at h
  unfold fft3SetupF
  cases hc : setupCheck P a with
  | some e => rw [hc] at h; simp at h
  | none =>
    rw [hc] at h
    simp only [Option.bind_eq_bind] at h ⊢
    obtain ⟨g, hg, h⟩ := Option.bind_eq_some_iff.mp h
    obtain ⟨f', hf, h⟩ := Option.bind_eq_some_iff.mp h
    simp only [Option.some.injEq, Except.ok.injEq] at h
    subst h
    obtain ⟨x, h1, h2⟩ := setupMainF_like ar (c := { P, me, a, st, g }) hv.fast hv.mid hv.slow hf
    exact ⟨x, by rw [hg]; simp [h1], h2⟩

/-! ## compute -/

/-- A local operation on the lines in array `ao`. -/
def runLoc (run : Mem ℂ → Option (Mem ℂ)) (ao : Nat) (l : LMem ℝ) : Option (LMem ℝ) :=
  (run (cview (l.ub ao))).map fun c => { l with ub := Function.update l.ub ao (cstore (l.ub ao) c) }

/-- Transforms of lines on a box with plan. -/
theorem planStep (e : Bool) {P : Nat} {size : Nat → Int} {ao : Nat} {p : Int} {bs : Nat → Box3}
    {plan : Nat → Fft1d} {n : Nat} (hplan : ∀ r < P, BoxPlan p (bs r) (plan r) n)
    (hsize : ∀ r < P, (bs r).vol ≤ size r) {run : Nat → Mem ℂ → Option (Mem ℂ)} {T : (Nat → ℂ) → Nat → ℂ}
    (hrun : ∀ r < P, ∀ N, PlanOK (plan r) n N → LinesOK (run r) T n N)
    {X : Grid3} {m : Nat → LMem ℝ} (hX : Holds P p bs ao X m) :
    ∃ m', Step e P size ao (fun r => [.loc (runLoc (run r) ao)]) m m' ∧ Holds P p bs ao (lineAlong p T X) m' :=
  lineStep e (fun r hr => (hplan r hr).plan.pos) (fun r hr => (hplan r hr).lo) (fun r hr => (hplan r hr).hi)
    (fun r hr => (hplan r hr).proper) (fun r hr => hrun r hr _ (hplan r hr).plan) hsize hX

/-- Three stages of lines, as in a forward transform. -/
def lines3 (T1 T2 T3 : (Nat → ℂ) → Nat → ℂ) (X : Grid3) : Grid3 :=
  lineAlong 2 T3 (lineAlong 1 T2 (lineAlong 0 T1 X))

/-- Three stages of lines, as in an inverse transform. -/
def lines3Inv (T1 T2 T3 : (Nat → ℂ) → Nat → ℂ) (X : Grid3) : Grid3 :=
  lineAlong 0 T1 (lineAlong 1 T2 (lineAlong 2 T3 X))

namespace Ready

variable {c : Create} {f : Nat → Fft3 ℝ} (R : Ready c f)
include R

/-- Forward path before scaling, with any code for the lines. -/
theorem lines_fwd (e : Bool) {run1 run2 run3 : Nat → Mem ℂ → Option (Mem ℂ)} {T1 T2 T3 : (Nat → ℂ) → Nat → ℂ}
    (h1 : ∀ r < c.P, ∀ N, PlanOK (f r).fftFast c.a.nfast.toNat N → LinesOK (run1 r) T1 c.a.nfast.toNat N)
    (h2 : ∀ r < c.P, ∀ N, PlanOK (f r).fftMid c.a.nmid.toNat N → LinesOK (run2 r) T2 c.a.nmid.toNat N)
    (h3 : ∀ r < c.P, ∀ N, PlanOK (f r).fftSlow c.a.nslow.toNat N → LinesOK (run3 r) T3 c.a.nslow.toNat N)
    {ai ao : Nat} (hio : ai = ao ∨ preflag c.P c.a = true) {X : Grid3} {m : Nat → LMem ℝ}
    (hX : Holds c.P 0 c.a.ins ai X m) (hb : Bufs c.P f ao m) :
    ∃ m', Step e c.P (fsz f) ao (fun r =>
        remapOrCopy (f r).prefast (f r).insize ai ao ++
        ([.loc (runLoc (run1 r) ao)] ++ remapIf (f r).fastmid ao ao ++
          [.loc (runLoc (run2 r) ao)] ++ remapIf (f r).midslow ao ao ++
          [.loc (runLoc (run3 r) ao)]) ++ remapIf (f r).postslow ao ao) m m' ∧
      Holds c.P c.a.permute c.a.outs ao (lines3 T1 T2 T3 X) m' := by
  obtain ⟨m0, s0, g0⟩ := R.pre_step e hio hX hb
  obtain ⟨m1, s1, g1⟩ := planStep e (size := fsz f) R.planFast (fun r hr => by
    rw [vol_eq_count (R.fast_proper hr)]; exact R.size_fast hr) h1 g0
  have s01 := s0.append s1
  obtain ⟨m2, s2, g2⟩ := R.fastmid_step e (Or.inl rfl) g1 (hb.congr s01.dom)
  have s12 := s01.append s2
  obtain ⟨m3, s3, g3⟩ := planStep e (size := fsz f) R.planMid (fun r hr => by
    rw [vol_eq_count (R.mid_proper r)]; exact R.size_mid hr) h2 g2
  have s13 := s12.append s3
  obtain ⟨m4, s4, g4⟩ := R.midslow_step e (Or.inl rfl) g3 (hb.congr s13.dom)
  have s14 := s13.append s4
  obtain ⟨m5, s5, g5⟩ := planStep e (size := fsz f) R.planSlow (fun r hr => by
    rw [vol_eq_count (R.slow_proper hr)]; exact R.size_slow hr) h3 g4
  have s15 := s14.append s5
  obtain ⟨m6, s6, g6⟩ := R.postslow_step e (Or.inl rfl) g5 (hb.congr s15.dom)
  exact ⟨m6, (s15.append s6).congr (fun r _ => by simp), g6⟩

/-- Inverse path before scaling, with any code for the lines. -/
theorem lines_inv (e : Bool) (hs : inoutSame c.P c.a = false) (hX2 : ExtraFits c f)
    {run1 run2 run3 : Nat → Mem ℂ → Option (Mem ℂ)} {T1 T2 T3 : (Nat → ℂ) → Nat → ℂ}
    (h1 : ∀ r < c.P, ∀ N, PlanOK (f r).fftFast c.a.nfast.toNat N → LinesOK (run1 r) T1 c.a.nfast.toNat N)
    (h2 : ∀ r < c.P, ∀ N, PlanOK (f r).fftMid c.a.nmid.toNat N → LinesOK (run2 r) T2 c.a.nmid.toNat N)
    (h3 : ∀ r < c.P, ∀ N, PlanOK (f r).fftSlow c.a.nslow.toNat N → LinesOK (run3 r) T3 c.a.nslow.toNat N)
    {ao : Nat} {X : Grid3} {m : Nat → LMem ℝ}
    (hX : Holds c.P c.a.permute c.a.outs ao X m) (hb : Bufs c.P f ao m) :
    ∃ m', Step e c.P (fsz f) ao (fun r =>
        remapOrCopy (f r).preslow (f r).outsize ao ao ++
        ([.loc (runLoc (run3 r) ao)] ++ remapIf (f r).slowmid ao ao ++
          [.loc (runLoc (run2 r) ao)] ++ remapIf (f r).midfast ao ao ++
          [.loc (runLoc (run1 r) ao)]) ++ remapIf (f r).postfast ao ao) m m' ∧
      Holds c.P 0 c.a.ins ao (lines3Inv T1 T2 T3 X) m' := by
  obtain ⟨m0, s0, g0⟩ := R.preslow_step e hs (Or.inl rfl) hX hb
  obtain ⟨m1, s1, g1⟩ := planStep e (size := fsz f) R.planSlow (fun r hr => by
    rw [vol_eq_count (R.slow_proper hr)]; exact R.size_slow hr) h3 g0
  have s01 := s0.append s1
  obtain ⟨m2, s2, g2⟩ := R.slowmid_step e hs (Or.inl rfl) g1 (hb.congr s01.dom)
  have s12 := s01.append s2
  obtain ⟨m3, s3, g3⟩ := planStep e (size := fsz f) R.planMid (fun r hr => by
    rw [vol_eq_count (R.mid_proper r)]; exact R.size_mid hr) h2 g2
  have s13 := s12.append s3
  obtain ⟨m4, s4, g4⟩ := R.midfast_step e hs hX2 (Or.inl rfl) g3 (hb.congr s13.dom)
  have s14 := s13.append s4
  obtain ⟨m5, s5, g5⟩ := planStep e (size := fsz f) R.planFast (fun r hr => by
    rw [vol_eq_count (R.fast_proper hr)]; exact R.size_fast hr) h1 g4
  have s15 := s14.append s5
  obtain ⟨m6, s6, g6⟩ := R.postfast_step e hs (Or.inl rfl) g5 (hb.congr s15.dom)
  exact ⟨m6, (s15.append s6).congr (fun r _ => by simp), g6⟩

variable {ar : Arith} {g : Nat → Fft3 ℝ}

/-- The transform of the grid by the code, forward path. -/
def gridF (ar : Arith) (c : Create) (back : Bool) (X : Grid3) : Grid3 :=
  lines3 (kissLine ar c.a.nfast.toNat back) (kissLine ar c.a.nmid.toNat back) (kissLine ar c.a.nslow.toNat back) X

/-- The transform of the grid by the code, inverse path. -/
def gridFInv (ar : Arith) (c : Create) (back : Bool) (X : Grid3) : Grid3 :=
  lines3Inv (kissLine ar c.a.nfast.toNat back) (kissLine ar c.a.nmid.toNat back) (kissLine ar c.a.nslow.toNat back)
    X

/-- **`compute` with rounding, forward.** -/
theorem computeF_fwd (e : Bool) (hg : ∀ r < c.P, (g r).Rounded ar (f r) (c.a.nfast * c.a.nmid * c.a.nslow))
    (J : Nat → Nat → Junk) (scaled : Bool) {n : Nat} {X : Grid3} {m : Nat → LMem ℝ}
    (hX : Holds c.P 0 c.a.ins n X m) (hb : Bufs c.P f n m) :
    ∃ m', Step e c.P (fsz f) n (fun r => (g r).computeF ar (J r) scaled false 1 n n) m m' ∧
      Holds c.P c.a.permute c.a.outs n (gridF ar c false X) m' := by
  obtain ⟨m1, s1, h1⟩ := R.lines_fwd e (run1 := fun r => performFftsF ar (J r 0) 1 (g r).fftFast)
    (run2 := fun r => performFftsF ar (J r 1) 1 (g r).fftMid)
    (run3 := fun r => performFftsF ar (J r 2) 1 (g r).fftSlow)
    (fun r hr N hN => performFftsF_ok ((hg r hr).fftFast.ok hN) _ _)
    (fun r hr N hN => performFftsF_ok ((hg r hr).fftMid.ok hN) _ _)
    (fun r hr N hN => performFftsF_ok ((hg r hr).fftSlow.ok hN) _ _) (Or.inl rfl) hX hb
  refine ⟨m1, s1.congr fun r hr => ?_, h1⟩
  have G := hg r hr
  unfold Fft3.computeF
  rw [if_pos (Or.inl rfl), if_neg (by decide), if_neg (by simp), G.prefast, G.insize, G.fastmid, G.midslow,
    G.postslow, List.append_nil]
  rfl

/-- The transform of the grid by the code, backward. -/
def gridBack (ar : Arith) (c : Create) (X : Grid3) : Grid3 :=
  if inoutSame c.P c.a = true then gridF ar c true X else gridFInv ar c true X

omit R in
theorem gridBack_or (ar : Arith) (c : Create) (X : Grid3) :
    gridBack ar c X = gridF ar c true X ∨ gridBack ar c X = gridFInv ar c true X := by
  unfold gridBack
  split
  · exact Or.inl rfl
  · exact Or.inr rfl

/-- Scaling by the code. -/
def scaleF (ar : Arith) (scaled : Bool) (N : Int) (X : Grid3) : Grid3 := fun i j k =>
  if scaled then ar.cscale (X i j k) (ar.conv (ar.ddiv 1 (ar.ofInt N))) else X i j k

/-- The scaling at the end of `compute`. -/
theorem scaleF_part (e : Bool) (hg : ∀ r < c.P, (g r).Rounded ar (f r) (c.a.nfast * c.a.nmid * c.a.nslow))
    (scaled : Bool) {n : Nat} {Y : Grid3} {m : Nat → LMem ℝ} (hY : Holds c.P 0 c.a.ins n Y m)
    (hb : Bufs c.P f n m)
    (hc : scaled = true → ∀ r < c.P, (c.a.ins r).count ≤ (c.a.outs r).count) :
    ∃ m', Step e c.P (fsz f) n (fun r => if (-1 : Int) = -1 ∧ scaled ∧ ¬ (false = true) then
        [.loc (scaleLocF ar (g r).norm (g r).normnum n)] else []) m m' ∧
      Holds c.P 0 c.a.ins n (scaleF ar scaled (c.a.nfast * c.a.nmid * c.a.nslow) Y) m' := by
  cases scaled with
  | false => exact ⟨m, (Step.nil m).congr fun r _ => by simp, hY⟩
  | true =>
    obtain ⟨m', s, h⟩ := scaleStepF e ar (size := fsz f) (ar.ddiv 1 (ar.ofInt (c.a.nfast * c.a.nmid * c.a.nslow)))
      (fun r => boxSize (c.a.outs r)) hY
      (fun r hr => by rw [boxSize_eq_count (R.args.properOut r hr)]; exact hc rfl r hr)
      (fun r hr => by rw [boxSize_eq_count (R.args.properOut r hr)]; exact R.size_outs hr)
      hb.data (fun r => (g r).norm) (fun r => (g r).normnum) (fun r hr => (hg r hr).norm)
      (fun r hr => by rw [(hg r hr).normnum]; exact R.normnum r hr)
    exact ⟨m', s.congr fun r _ => by simp, h⟩

/-- **`compute` with rounding, backward and in place**, whichever path it takes. -/
theorem computeF_back (e : Bool) (hg : ∀ r < c.P, (g r).Rounded ar (f r) (c.a.nfast * c.a.nmid * c.a.nslow))
    (hX2 : inoutSame c.P c.a = false → ExtraFits c f) (J : Nat → Nat → Junk) (scaled : Bool) {n : Nat} {X : Grid3}
    {m : Nat → LMem ℝ} (hX : Holds c.P c.a.permute c.a.outs n X m) (hb : Bufs c.P f n m)
    (hc : scaled = true → ∀ r < c.P, (c.a.ins r).count ≤ (c.a.outs r).count) :
    ∃ m', Step e c.P (fsz f) n (fun r => (g r).computeF ar (J r) scaled false (-1) n n) m m' ∧
      Holds c.P 0 c.a.ins n (scaleF ar scaled (c.a.nfast * c.a.nmid * c.a.nslow) (gridBack ar c X)) m' := by
  have k1 : ∀ r < c.P, ∀ N, PlanOK (f r).fftFast c.a.nfast.toNat N →
      LinesOK (performFftsF ar (J r 0) (-1) (g r).fftFast) (kissLine ar c.a.nfast.toNat true) c.a.nfast.toNat N :=
    fun r hr N hN => performFftsF_ok ((hg r hr).fftFast.ok hN) _ _
  have k2 : ∀ r < c.P, ∀ N, PlanOK (f r).fftMid c.a.nmid.toNat N →
      LinesOK (performFftsF ar (J r 1) (-1) (g r).fftMid) (kissLine ar c.a.nmid.toNat true) c.a.nmid.toNat N :=
    fun r hr N hN => performFftsF_ok ((hg r hr).fftMid.ok hN) _ _
  have k3 : ∀ r < c.P, ∀ N, PlanOK (f r).fftSlow c.a.nslow.toNat N →
      LinesOK (performFftsF ar (J r 2) (-1) (g r).fftSlow) (kissLine ar c.a.nslow.toNat true) c.a.nslow.toNat N :=
    fun r hr N hN => performFftsF_ok ((hg r hr).fftSlow.ok hN) _ _
  by_cases hs : inoutSame c.P c.a = true
  · obtain ⟨hp, hl⟩ := R.same_layout hs
    have hX' : Holds c.P 0 c.a.ins n X m := by
      intro r hr
      rw [hl r hr, ← hp]
      exact hX r hr
    obtain ⟨m1, s1, h1⟩ := R.lines_fwd e k1 k2 k3 (Or.inl rfl) hX' hb
    have h1' : Holds c.P 0 c.a.ins n (gridF ar c true X) m1 := by
      intro r hr
      have := h1 r hr
      rw [hl r hr]
      rwa [hp] at this
    obtain ⟨m2, s2, h2⟩ := R.scaleF_part e hg scaled h1' (hb.congr s1.dom) hc
    refine ⟨m2, (s1.append s2).congr fun r hr => ?_, by unfold gridBack; rw [if_pos hs]; exact h2⟩
    have G := hg r hr
    unfold Fft3.computeF
    rw [if_pos (Or.inr (by rw [G.same, R.same r hr]; exact hs)), if_neg (by decide), G.prefast, G.insize, G.fastmid,
      G.midslow, G.postslow]
    rfl
  · rw [Bool.not_eq_true] at hs
    obtain ⟨m1, s1, h1⟩ := R.lines_inv e hs (hX2 hs) k1 k2 k3 hX hb
    obtain ⟨m2, s2, h2⟩ := R.scaleF_part e hg scaled h1 (hb.congr s1.dom) hc
    refine ⟨m2, (s1.append s2).congr fun r hr => ?_, by unfold gridBack; rw [if_neg (by rw [hs]; decide)]; exact h2⟩
    have G := hg r hr
    unfold Fft3.computeF
    rw [if_neg (by rw [G.same, R.same r hr, hs]; decide), if_neg (by decide), G.preslow, G.outsize, G.slowmid,
      G.midfast, G.postfast]
    rfl

/-- The same with the condition on the buffers stated for the caller. -/
theorem backF (e : Bool) (hg : ∀ r < c.P, (g r).Rounded ar (f r) (c.a.nfast * c.a.nmid * c.a.nslow))
    (J : Nat → Nat → Junk) (scaled : Bool) {n : Nat} {X : Grid3}
    {m : Nat → LMem ℝ} (hX : Holds c.P c.a.permute c.a.outs n X m) (hb : Bufs c.P f n m)
    (hr : RoomBack c.P c.a c.st m)
    (hc : scaled = true → ∀ r < c.P, (c.a.ins r).count ≤ (c.a.outs r).count) :
    ∃ m', Step e c.P (fsz f) n (fun r => (g r).computeF ar (J r) scaled false (-1) n n) m m' ∧
      Holds c.P 0 c.a.ins n (scaleF ar scaled (c.a.nfast * c.a.nmid * c.a.nslow) (gridBack ar c X)) m' := by
  cases hs : inoutSame c.P c.a with
  | true => exact R.computeF_back e hg (fun h => by rw [hs] at h; cases h) J scaled hX hb hc
  | false =>
    obtain ⟨s, t, hx, hB⟩ := R.roomFits hr hs
    set g' : Nat → Fft3 ℝ := fun r => { g r with
      sendsize := ((f r).atLeast (s r) (t r)).sendsize, recvsize := ((f r).atLeast (s r) (t r)).recvsize }
    obtain ⟨m', s, k⟩ := (R.atLeast s t).computeF_back (g := g') e (fun r hr => by
      have G := hg r hr
      exact { G with sendsize := rfl, recvsize := rfl }) (fun _ => hx) J scaled hX (hB n hb) hc
    exact ⟨m', s, k⟩

end Ready

end FftMpi
