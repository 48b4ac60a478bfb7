import Verif.FftFlLemmas

/-!
# `FFT2d` with the arithmetic as a parameter: lemmas
-/

noncomputable section

namespace FftMpi

/-- A transform of lines along the coordinate that is stored fastest. -/
def lineAlong2 (permute : Int) (T : (Nat → ℂ) → Nat → ℂ) (X : Grid2) : Grid2 := fun i j =>
  if permute = 0 then T (fun t => X t j) i.toNat
  else T (fun t => X i t) j.toNat

theorem lineAlong2_lift {p : Int} (hp : p = 0 ∨ p = 1) (T : (Nat → ℂ) → Nat → ℂ) (X : Grid2) :
    lineAlong p T (liftGrid X) = liftGrid (lineAlong2 p T X) := by
  funext i j k
  rcases hp with rfl | rfl <;> simp [lineAlong, lineAlong2, liftGrid]

/-- Transforms of lines on a box with plan. -/
theorem planStep2 (e : Bool) {P : Nat} {size : Nat → Int} {ao : Nat} {p : Int} (hp : p = 0 ∨ p = 1)
    {bs : Nat → Box2} {plan : Nat → Fft1d} {n : Nat} (hplan : ∀ r < P, BoxPlan p (bs r).lift (plan r) n)
    (hsize : ∀ r < P, (bs r).count ≤ size r) (hprop : ∀ r < P, (bs r).Proper)
    {run : Nat → Mem ℂ → Option (Mem ℂ)} {T : (Nat → ℂ) → Nat → ℂ}
    (hrun : ∀ r < P, ∀ N, PlanOK (plan r) n N → LinesOK (run r) T n N)
    {X : Grid2} {m : Nat → LMem ℝ} (hX : Holds2 P p bs ao X m) :
    ∃ m', Step e P size ao (fun r => [.loc (runLoc (run r) ao)]) m m' ∧
      Holds2 P p bs ao (lineAlong2 p T X) m' := by
  obtain ⟨m', h1, h2⟩ := planStep e (size := size) hplan (by
    intro r hr
    have hb : (bs r).lift.Proper := ⟨(hprop r hr).1, (hprop r hr).2, by rw [Box2.lift_ksize]; decide⟩
    rw [vol_eq_count hb, Box2.lift_count]
    exact hsize r hr) hrun ((holds2_lift hp).mp hX)
  refine ⟨m', h1, (holds2_lift hp).mpr ?_⟩
  rw [← lineAlong2_lift hp]
  exact h2

/-- `scale_ffts` on every rank, with all the numbers of the boxes scaled. -/
theorem scaleStepF2 (e : Bool) (ar : Arith) {P : Nat} {size : Nat → Int} {ao : Nat} {p : Int} (hp : p = 0 ∨ p = 1)
    {bs : Nat → Box2} {X : Grid2} {m : Nat → LMem ℝ} (norm : ℝ) (num : Nat → Int) (hX : Holds2 P p bs ao X m)
    (hc : ∀ r < P, (bs r).count ≤ num r) (hnum : ∀ r < P, num r ≤ size r)
    (hd : ∀ r < P, accessible ((m r).ub ao) 0 (2 * size r)) (fn : Nat → ℝ) (fnum : Nat → Int)
    (e1 : ∀ r < P, fn r = norm) (e2 : ∀ r < P, fnum r = num r) :
    ∃ m', Step e P size ao (fun r => [.loc (scaleLocF ar (fn r) (fnum r) ao)]) m m' ∧
      Holds2 P p bs ao (fun i j => ar.cscale (X i j) (ar.conv norm)) m' := by
  obtain ⟨m', h1, h2⟩ := scaleStepF e ar (size := size) norm num ((holds2_lift hp).mp hX)
    (fun r hr => by rw [Box2.lift_count]; exact hc r hr) hnum hd fn fnum e1 e2
  exact ⟨m', h1, (holds2_lift hp).mpr h2⟩

/-! ## setup -/

theorem setupFftsF2_like (ar : Arith) {c : Create2} (h1 : 2 ≤ c.a.nfast ∧ c.a.nfast < 2 ^ 31)
    (h3 : 2 ≤ c.a.nslow ∧ c.a.nslow < 2 ^ 31) {x z : Fft1d} (h : setupFfts2 c = some (x, z)) :
    ∃ x' z', setupFftsF2 ar c = some (x', z') ∧ FlPlan ar x x' ∧ FlPlan ar z z' := by
  obtain ⟨x0, z0, k0, ⟨k1, k2, _⟩, ⟨k5, k6, _⟩⟩ := setupFfts2_ok h1 h3
  rw [h] at k0
  cases k0
  obtain ⟨ff, hff⟩ := kissAllocF_some ar h1 false
  obtain ⟨fb, hfb⟩ := kissAllocF_some ar h1 true
  obtain ⟨sf, hsf⟩ := kissAllocF_some ar h3 false
  obtain ⟨sb, hsb⟩ := kissAllocF_some ar h3 true
  have fin : ∀ {p : Fft1d} {n : Int} {t : Int} {f b : KissState} {q : Int}, p.length = n → p.total = t →
      kissAllocF ar n.toNat false = some f → kissAllocF ar n.toNat true = some b →
      FlPlan ar p { n := q, length := n, total := t, planForward := f, planBackward := b } := by
    intro p n t f b q e1 e2 e3 e4
    subst e1
    exact ⟨rfl, e2.symm, e3, e4⟩
  unfold setupFftsF2
  by_cases e2 : c.a.nslow = c.a.nfast
  · have hsf' : kissAllocF ar c.a.nslow.toNat false = some ff := by rw [e2]; exact hff
    have hsb' : kissAllocF ar c.a.nslow.toNat true = some fb := by rw [e2]; exact hfb
    simp only [Option.bind_eq_bind, hff, hfb, Option.bind_some, if_pos e2]
    exact ⟨_, _, rfl, fin k1 k2 hff hfb, fin k5 k6 hsf' hsb'⟩
  · simp only [Option.bind_eq_bind, hff, hfb, hsf, hsb, Option.bind_some, if_neg e2]
    exact ⟨_, _, rfl, fin k1 k2 hff hfb, fin k5 k6 hsf hsb⟩

/-- `g` is the object with rounding where the exact one is `f`. -/
structure Fft2.Rounded (ar : Arith) (g f : Fft2 ℝ) (N : Int) : Prop where
  same : g.same = f.same
  prefast : g.prefast = f.prefast
  fastslow : g.fastslow = f.fastslow
  postslow : g.postslow = f.postslow
  preslow : g.preslow = f.preslow
  slowfast : g.slowfast = f.slowfast
  postfast : g.postfast = f.postfast
  insize : g.insize = f.insize
  outsize : g.outsize = f.outsize
  fftsize : g.fftsize = f.fftsize
  sendsize : g.sendsize = f.sendsize
  recvsize : g.recvsize = f.recvsize
  normnum : g.normnum = f.normnum
  norm : g.norm = ar.ddiv 1 (ar.ofInt N)
  fftFast : FlPlan ar f.fftFast g.fftFast
  fftSlow : FlPlan ar f.fftSlow g.fftSlow

theorem setupMainF2_like (ar : Arith) {c : Create2} (h1 : 2 ≤ c.a.nfast ∧ c.a.nfast < 2 ^ 31)
    (h3 : 2 ≤ c.a.nslow ∧ c.a.nslow < 2 ^ 31) {f : Fft2 ℝ} (h : setupMain2 c = some f) :
    ∃ g, setupMainF2 ar c = some g ∧ g.Rounded ar f (c.a.nfast * c.a.nslow) := by
  obtain ⟨x, z, k1, -⟩ := setupFfts2_ok (c := c) h1 h3
  obtain ⟨x', z', l0, l1, l3⟩ := setupFftsF2_like ar h1 h3 k1
  unfold setupMain2 at h
  rw [k1] at h
  unfold setupMainF2
  rw [l0]
  simp only [Option.bind_eq_bind] at h ⊢
  obtain ⟨⟨fw, s⟩, hf, h⟩ := Option.bind_eq_some_iff.mp h
  rw [hf]
  simp only [Option.bind_some] at h ⊢
  by_cases hs : inoutSame2 c.P c.a = true
  · rw [if_pos hs] at h ⊢
    refine ⟨_, rfl, ?_⟩
    obtain rfl := Option.some.inj h
    constructor <;> first | rfl | assumption
  · rw [if_neg hs] at h ⊢
    obtain ⟨x, hi, h⟩ := Option.bind_eq_some_iff.mp h
    rw [hi]
    refine ⟨_, rfl, ?_⟩
    obtain rfl := Option.some.inj h
    constructor <;> first | rfl | assumption

theorem fft2SetupF_like (ar : Arith) {w : Int} {P me : Nat} {a : Args2} {st : Settings} (hv : a.Valid P)
    {f : Fft2 ℝ} (h : fft2Setup w P me a st = some (.ok f)) :
    ∃ g, fft2SetupF ar w P me a st = some (.ok g) ∧ g.Rounded ar f (a.nfast * a.nslow) := by
  unfold fft2Setup at h
  unfold fft2SetupF
  cases hc : setupCheck2 P a with
  | some e => rw [hc] at h; simp at h
  | none =>
    rw [hc] at h
    simp only [Option.bind_eq_bind] at h ⊢
    obtain ⟨g, hg, h⟩ := Option.bind_eq_some_iff.mp h
    obtain ⟨f', hf, h⟩ := Option.bind_eq_some_iff.mp h
    simp only [Option.some.injEq, Except.ok.injEq] at h
    subst h
    obtain ⟨x, h1, h2⟩ := setupMainF2_like ar (c := { w, P, me, a, st, g }) hv.fast hv.slow hf
    exact ⟨x, by rw [hg]; simp [h1], h2⟩

/-! ## compute -/

namespace Ready2

variable {c : Create2} {f : Nat → Fft2 ℝ} (R : Ready2 c f)
include R

/-- Forward path before scaling, with any code for the lines. -/
theorem lines_fwd (e : Bool) {run1 run3 : Nat → Mem ℂ → Option (Mem ℂ)} {T1 T3 : (Nat → ℂ) → Nat → ℂ}
    (h1 : ∀ r < c.P, ∀ N, PlanOK (f r).fftFast c.a.nfast.toNat N → LinesOK (run1 r) T1 c.a.nfast.toNat N)
    (h3 : ∀ r < c.P, ∀ N, PlanOK (f r).fftSlow c.a.nslow.toNat N → LinesOK (run3 r) T3 c.a.nslow.toNat N)
    {ai ao : Nat} (hio : ai = ao ∨ preflag2 c.P c.a = true) {X : Grid2} {m : Nat → LMem ℝ}
    (hX : Holds2 c.P 0 c.a.ins ai X m) (hb : Bufs2 c.P f ao m) :
    ∃ m', Step e c.P (fsz2 f) ao (fun r =>
        remapOrCopy2 (f r).prefast (f r).insize ai ao ++
        ([.loc (runLoc (run1 r) ao)] ++ remapIf2 (f r).fastslow ao ao ++
          [.loc (runLoc (run3 r) ao)]) ++ remapIf2 (f r).postslow ao ao) m m' ∧
      Holds2 c.P c.a.permute c.a.outs ao (lineAlong2 1 T3 (lineAlong2 0 T1 X)) m' := by
  obtain ⟨m0, s0, g0⟩ := R.pre_step e hio hX hb
  obtain ⟨m1, s1, g1⟩ := planStep2 e (size := fsz2 f) (Or.inl rfl) R.planFast (fun r hr => R.size_fast hr)
    (fun _ hr => R.fast_proper hr) h1 g0
  have s01 := s0.append s1
  obtain ⟨m2, s2, g2⟩ := R.fastslow_step e (Or.inl rfl) g1 (hb.congr s01.dom)
  have s12 := s01.append s2
  obtain ⟨m5, s5, g5⟩ := planStep2 e (size := fsz2 f) (Or.inr rfl) R.planSlow (fun r hr => R.size_slow hr)
    (fun _ hr => R.slow_proper hr) h3 g2
  have s15 := s12.append s5
  obtain ⟨m6, s6, g6⟩ := R.postslow_step e (Or.inl rfl) g5 (hb.congr s15.dom)
  exact ⟨m6, (s15.append s6).congr (fun r _ => by simp), g6⟩

/-- Inverse path before scaling, with any code for the lines. -/
theorem lines_inv (e : Bool) (hs : inoutSame2 c.P c.a = false)
    {run1 run3 : Nat → Mem ℂ → Option (Mem ℂ)} {T1 T3 : (Nat → ℂ) → Nat → ℂ}
    (h1 : ∀ r < c.P, ∀ N, PlanOK (f r).fftFast c.a.nfast.toNat N → LinesOK (run1 r) T1 c.a.nfast.toNat N)
    (h3 : ∀ r < c.P, ∀ N, PlanOK (f r).fftSlow c.a.nslow.toNat N → LinesOK (run3 r) T3 c.a.nslow.toNat N)
    {ao : Nat} {X : Grid2} {m : Nat → LMem ℝ}
    (hX : Holds2 c.P c.a.permute c.a.outs ao X m) (hb : Bufs2 c.P f ao m) :
    ∃ m', Step e c.P (fsz2 f) ao (fun r =>
        remapOrCopy2 (f r).preslow (f r).outsize ao ao ++
        ([.loc (runLoc (run3 r) ao)] ++ remapIf2 (f r).slowfast ao ao ++
          [.loc (runLoc (run1 r) ao)]) ++ remapIf2 (f r).postfast ao ao) m m' ∧
      Holds2 c.P 0 c.a.ins ao (lineAlong2 0 T1 (lineAlong2 1 T3 X)) m' := by
  obtain ⟨m0, s0, g0⟩ := R.preslow_step e hs (Or.inl rfl) hX hb
  obtain ⟨m1, s1, g1⟩ := planStep2 e (size := fsz2 f) (Or.inr rfl) R.planSlow (fun r hr => R.size_slow hr)
    (fun _ hr => R.slow_proper hr) h3 g0
  have s01 := s0.append s1
  obtain ⟨m2, s2, g2⟩ := R.slowfast_step e hs (Or.inl rfl) g1 (hb.congr s01.dom)
  have s12 := s01.append s2
  obtain ⟨m5, s5, g5⟩ := planStep2 e (size := fsz2 f) (Or.inl rfl) R.planFast (fun r hr => R.size_fast hr)
    (fun _ hr => R.fast_proper hr) h1 g2
  have s15 := s12.append s5
  obtain ⟨m6, s6, g6⟩ := R.postfast_step e hs (Or.inl rfl) g5 (hb.congr s15.dom)
  exact ⟨m6, (s15.append s6).congr (fun r _ => by simp), g6⟩

variable {ar : Arith} {g : Nat → Fft2 ℝ}

/-- The transform of the grid by the code, forward path. -/
def gridF (ar : Arith) (c : Create2) (back : Bool) (X : Grid2) : Grid2 :=
  lineAlong2 1 (kissLine ar c.a.nslow.toNat back) (lineAlong2 0 (kissLine ar c.a.nfast.toNat back) X)

/-- The transform of the grid by the code, inverse path. -/
def gridFInv (ar : Arith) (c : Create2) (back : Bool) (X : Grid2) : Grid2 :=
  lineAlong2 0 (kissLine ar c.a.nfast.toNat back) (lineAlong2 1 (kissLine ar c.a.nslow.toNat back) X)

/-- **`compute` with rounding, forward.** -/
theorem computeF_fwd (e : Bool) (hg : ∀ r < c.P, (g r).Rounded ar (f r) (c.a.nfast * c.a.nslow))
    (J : Nat → Nat → Junk) (scaled : Bool) {n : Nat} {X : Grid2} {m : Nat → LMem ℝ}
    (hX : Holds2 c.P 0 c.a.ins n X m) (hb : Bufs2 c.P f n m) :
    ∃ m', Step e c.P (fsz2 f) n (fun r => (g r).computeF ar (J r) scaled false 1 n n) m m' ∧
      Holds2 c.P c.a.permute c.a.outs n (gridF ar c false X) m' := by
  obtain ⟨m1, s1, h1⟩ := R.lines_fwd e (run1 := fun r => performFftsF ar (J r 0) 1 (g r).fftFast)
    (run3 := fun r => performFftsF ar (J r 1) 1 (g r).fftSlow)
    (fun r hr N hN => performFftsF_ok ((hg r hr).fftFast.ok hN) _ _)
    (fun r hr N hN => performFftsF_ok ((hg r hr).fftSlow.ok hN) _ _) (Or.inl rfl) hX hb
  refine ⟨m1, s1.congr fun r hr => ?_, h1⟩
  have G := hg r hr
  unfold Fft2.computeF
  rw [if_pos (Or.inl rfl), if_neg (by decide), if_neg (by simp), G.prefast, G.insize, G.fastslow,
    G.postslow, List.append_nil]
  rfl

/-- The transform of the grid by the code, backward. -/
def gridBack (ar : Arith) (c : Create2) (X : Grid2) : Grid2 :=
  if inoutSame2 c.P c.a = true then gridF ar c true X else gridFInv ar c true X

omit R in
theorem gridBack_or (ar : Arith) (c : Create2) (X : Grid2) :
    gridBack ar c X = gridF ar c true X ∨ gridBack ar c X = gridFInv ar c true X := by
  unfold gridBack
  split
  · exact Or.inl rfl
  · exact Or.inr rfl

/-- Scaling by the code. -/
def scaleF (ar : Arith) (scaled : Bool) (N : Int) (X : Grid2) : Grid2 := fun i j =>
  if scaled then ar.cscale (X i j) (ar.conv (ar.ddiv 1 (ar.ofInt N))) else X i j

/-- The scaling at the end of `compute`. -/
theorem scaleF_part (e : Bool) (hg : ∀ r < c.P, (g r).Rounded ar (f r) (c.a.nfast * c.a.nslow))
    (scaled : Bool) {n : Nat} {Y : Grid2} {m : Nat → LMem ℝ} (hY : Holds2 c.P 0 c.a.ins n Y m)
    (hb : Bufs2 c.P f n m)
    (hc : scaled = true → ∀ r < c.P, (c.a.ins r).count ≤ (c.a.outs r).count) :
    ∃ m', Step e c.P (fsz2 f) n (fun r => if (-1 : Int) = -1 ∧ scaled ∧ ¬ (false = true) then
        [.loc (scaleLocF ar (g r).norm (g r).normnum n)] else []) m m' ∧
      Holds2 c.P 0 c.a.ins n (scaleF ar scaled (c.a.nfast * c.a.nslow) Y) m' := by
  cases scaled with
  | false => exact ⟨m, (Step.nil m).congr fun r _ => by simp, hY⟩
  | true =>
    obtain ⟨m', s, h⟩ := scaleStepF2 e ar (size := fsz2 f) (Or.inl rfl)
      (ar.ddiv 1 (ar.ofInt (c.a.nfast * c.a.nslow)))
      (fun r => boxSize2 (c.a.outs r)) hY
      (fun r hr => by rw [boxSize2_eq_count (R.args.properOut r hr)]; exact hc rfl r hr)
      (fun r hr => by rw [boxSize2_eq_count (R.args.properOut r hr)]; exact R.size_outs hr)
      hb.data (fun r => (g r).norm) (fun r => (g r).normnum) (fun r hr => (hg r hr).norm)
      (fun r hr => by rw [(hg r hr).normnum]; exact R.normnum r hr)
    exact ⟨m', s.congr fun r _ => by simp, h⟩

/-- **`compute` with rounding, backward and in place**, whichever path it takes. -/
theorem computeF_back (e : Bool) (hg : ∀ r < c.P, (g r).Rounded ar (f r) (c.a.nfast * c.a.nslow))
    (J : Nat → Nat → Junk) (scaled : Bool) {n : Nat} {X : Grid2}
    {m : Nat → LMem ℝ} (hX : Holds2 c.P c.a.permute c.a.outs n X m) (hb : Bufs2 c.P f n m)
    (hc : scaled = true → ∀ r < c.P, (c.a.ins r).count ≤ (c.a.outs r).count) :
    ∃ m', Step e c.P (fsz2 f) n (fun r => (g r).computeF ar (J r) scaled false (-1) n n) m m' ∧
      Holds2 c.P 0 c.a.ins n (scaleF ar scaled (c.a.nfast * c.a.nslow) (gridBack ar c X)) m' := by
  have k1 : ∀ r < c.P, ∀ N, PlanOK (f r).fftFast c.a.nfast.toNat N →
      LinesOK (performFftsF ar (J r 0) (-1) (g r).fftFast) (kissLine ar c.a.nfast.toNat true) c.a.nfast.toNat N :=
    fun r hr N hN => performFftsF_ok ((hg r hr).fftFast.ok hN) _ _
  have k3 : ∀ r < c.P, ∀ N, PlanOK (f r).fftSlow c.a.nslow.toNat N →
      LinesOK (performFftsF ar (J r 1) (-1) (g r).fftSlow) (kissLine ar c.a.nslow.toNat true) c.a.nslow.toNat N :=
    fun r hr N hN => performFftsF_ok ((hg r hr).fftSlow.ok hN) _ _
  by_cases hs : inoutSame2 c.P c.a = true
  · obtain ⟨hp, hl⟩ := R.same_layout hs
    have hX' : Holds2 c.P 0 c.a.ins n X m := by
      intro r hr
      rw [hl r hr, ← hp]
      exact hX r hr
    obtain ⟨m1, s1, h1⟩ := R.lines_fwd e k1 k3 (Or.inl rfl) hX' hb
    have h1' : Holds2 c.P 0 c.a.ins n (gridF ar c true X) m1 := by
      intro r hr
      have := h1 r hr
      rw [hl r hr]
      rwa [hp] at this
    obtain ⟨m2, s2, h2⟩ := R.scaleF_part e hg scaled h1' (hb.congr s1.dom) hc
    refine ⟨m2, (s1.append s2).congr fun r hr => ?_, by unfold gridBack; rw [if_pos hs]; exact h2⟩
    have G := hg r hr
    unfold Fft2.computeF
    rw [if_pos (Or.inr (by rw [G.same, R.same r hr]; exact hs)), if_neg (by decide), G.prefast, G.insize,
      G.fastslow, G.postslow]
    rfl
  · rw [Bool.not_eq_true] at hs
    obtain ⟨m1, s1, h1⟩ := R.lines_inv e hs k1 k3 hX hb
    obtain ⟨m2, s2, h2⟩ := R.scaleF_part e hg scaled h1 (hb.congr s1.dom) hc
    refine ⟨m2, (s1.append s2).congr fun r hr => ?_, by unfold gridBack; rw [if_neg (by rw [hs]; decide)]; exact h2⟩
    have G := hg r hr
    unfold Fft2.computeF
    rw [if_neg (by rw [G.same, R.same r hr, hs]; decide), if_neg (by decide), G.preslow, G.outsize, G.slowfast,
      G.postfast]
    rfl

end Ready2

end FftMpi
