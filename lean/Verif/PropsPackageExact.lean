import Verif.PropsPackage
import Verif.Tight

/-!
# C52: exactly when the other packages do what KISS does

`C52_same_partial` says that MKL, FFTW2 and FFTW3 (as `Package.lean` specifies them) do what KISS does if their conditions are met.
Here: otherwise `compute` and `only_1d_ffts` have no defined result.  Remaps alone need no conditions.
-/

noncomputable section

namespace FftMpi

/-- An action leaves the program as it is, or leaves behind an instruction; a local one had a result. -/
theorem act_loc {α : Type} {st t : RankSt α} {ch : Nat} {a : Action α} (ha : act st ch = some a) (hn : a.Next t)
    {F : LMem α → Option (LMem α)} (hF : .loc F ∈ st.prog) : .loc F ∈ t.prog ∨ ∃ x y, F x = some y := by
  unfold act at ha
  split at ha
  · injection ha with ha
    subst ha
    rw [show t = _ from hn]
    exact .inl hF
  split at ha
  · cases ha
  · rename_i hp
    split at ha
    · injection ha with ha
      subst ha
      rw [show t = _ from hn]
      rw [hp] at hF
      exact .inl (by simpa using hF)
    · cases ha
  · rename_i hp
    rw [Option.map_eq_some_iff] at ha
    obtain ⟨v, hv, ha⟩ := ha
    subst ha
    rw [show t = _ from hn]
    rw [hp] at hF
    exact .inl (by simpa using hF)
  · rename_i hp
    rw [Option.map_eq_some_iff] at ha
    obtain ⟨s, hs, ha⟩ := ha
    subst ha
    rw [show t = _ from hn]
    rw [hp] at hF
    rcases List.mem_cons.mp hF with h | h
    · injection h with h
      subst h
      exact .inr ⟨_, _, hs⟩
    · exact .inl h
  · rename_i hp
    injection ha with ha
    subst ha
    rw [show t = _ from hn]
    rw [hp] at hF
    exact .inl (by simpa using hF)
  · rename_i hp
    rw [Option.map_eq_some_iff] at ha
    obtain ⟨q, hq, ha⟩ := ha
    subst ha
    obtain ⟨v, hv⟩ := hn
    rw [Option.map_eq_some_iff] at hv
    obtain ⟨s, hs, hv⟩ := hv
    subst hv
    rw [hp] at hF
    exact .inl (by simpa using hF)
  · rename_i hp
    rw [Option.map_eq_some_iff] at ha
    obtain ⟨v, hv, ha⟩ := ha
    subst ha
    rw [show t = _ from hn]
    rw [hp] at hF
    exact .inl (by simpa using hF)
  · rename_i hp
    injection ha with ha
    subst ha
    obtain ⟨v, hv⟩ := hn
    dsimp only at hv
    split at hv
    · injection hv with hv
      subst hv
      rw [hp] at hF
      exact .inl (by simpa using hF)
    · cases hv

/-- In an execution that comes to an end every local instruction had a result. -/
theorem Terminates.loc_some {α : Type} {e : Bool} {P : Nat} {prog : Nat → List (Instr α)} {m m' : Nat → LMem α}
    (h : Terminates e P prog m m') {r : Nat} (hr : r < P) {F : LMem α → Option (LMem α)} (hF : .loc F ∈ prog r) :
    ∃ x y, F x = some y := by
  have run : ∀ {n : Nat} {c c' : Config α}, Run e n c c' → (c'.rank r).prog = [] → .loc F ∈ (c.rank r).prog →
      ∃ x y, F x = some y := by
    intro n c c' h
    induction h with
    | refl => intro h0 h; rw [h0] at h; cases h
    | step s ch hs _ ih =>
      intro h0 h
      obtain ⟨h1, a, ha, hn⟩ := step_next hs
      by_cases hrs : r = s
      · subst hrs
        exact (act_loc ha hn h).elim (ih h0) id
      · exact ih h0 (by rw [h1 r hrs]; exact h)
  obtain ⟨n, hn⟩ := h.bounded
  obtain ⟨_, hrun⟩ := hn 0 _ (.refl _)
  exact run hrun (finalCfg_final P m m' r).1 (by simpa [initCfg, hr] using hF)

/-- A plan that has a result was usable. -/
theorem performLocL_usable {b : Package} {plan : Fft1d} {pl : Fft1dL} {n N : Nat} (hp : PlanOK plan n N) (hl : LibOf b plan pl)
    {al : Nat → Bool} {ao : Nat} {flag : Int} (h : ∃ x y, performLocL al flag pl ao x = some y) : pl.Usable b (al ao) := by
  obtain ⟨x, y, h⟩ := h
  unfold performLocL at h
  obtain ⟨c, h, -⟩ := Option.map_eq_some_iff.mp h
  unfold performFftsL at h
  rw [hl.plan] at h
  have hn := hp.pos
  have hlen : pl.length = n := by rw [hl.length, hp.length]
  have ht : pl.total.tdiv pl.length = pl.n := by
    rw [hl.total, hl.whole, ← hl.n, ← hl.length]
    exact Int.mul_tdiv_cancel _ (by rw [hlen]; omega)
  constructor
  · rintro rfl
    simp only [libPlan, mklPlan, dftiCreate, dftiCompute, ht] at h
    by_contra hc
    split_ifs at h <;> tauto
  · rintro rfl
    simp only [libPlan, fftw3Plan, fftw3] at h
    by_contra hc
    split_ifs at h <;> tauto

/-- **C52, exactly.**  Where `compute` with KISS ends, with another package it ends (with the same result) if and only if the package's
conditions are met: with MKL every rank has a 1d FFT to do in every dimension, with FFTW3 the array `out` is aligned on every rank. -/
theorem C52_compute_iff {b : Package} {P : Nat} {a : Args3} {st : Settings} {f : Nat → Fft3 ℝ} {g : Nat → Fft3L}
    (S : SetUp3 P a st f) (G : SetUp3L b P a st g) {e : Bool} (al : Nat → Nat → Bool) {J : Nat → Nat → Junk} {scaled : Bool}
    {flag : Int} {ai ao : Nat} {m m' : Nat → LMem ℝ}
    (h : Terminates e P (fun r => (f r).compute (J r) scaled false flag ai ao) m m') :
    (∃ m2, Terminates e P (fun r => (g r).compute b (al r) scaled false flag ai ao) m m2) ↔
      ∀ r < P, (g r).Usable b (al r) ao := by
  have L := SetUp3L.like S G
  constructor
  · rintro ⟨m2, h2⟩ r hr
    have S' := S
    obtain ⟨c, rfl, rfl, rfl, _, R⟩ := S'.ready
    have hm : ∀ p ∈ [(g r).fftFast, (g r).fftMid, (g r).fftSlow],
        .loc (performLocL (al r) flag p ao) ∈ (g r).compute b (al r) scaled false flag ai ao := by
      intro p hp
      unfold Fft3L.compute
      simp only [List.mem_cons, List.not_mem_nil, or_false] at hp
      rcases hp with rfl | rfl | rfl <;> split_ifs <;> simp_all
    have u1 := performLocL_usable (R.planFast r hr).plan (L r hr).fftFast (h2.loc_some hr (hm _ (by simp)))
    have u2 := performLocL_usable (R.planMid r hr).plan (L r hr).fftMid (h2.loc_some hr (hm _ (by simp)))
    have u3 := performLocL_usable (R.planSlow r hr).plan (L r hr).fftSlow (h2.loc_some hr (hm _ (by simp)))
    exact ⟨fun e => ⟨u1.1 e, u2.1 e, u3.1 e⟩, u1.2⟩
  · exact fun hu => ⟨m', (((C52_same_partial b S).2 g G).2 e al J flag ai ao m m' hu).1 scaled false h⟩

/-- The same for `only_1d_ffts`. -/
theorem C52_only1d_iff {b : Package} {P : Nat} {a : Args3} {st : Settings} {f : Nat → Fft3 ℝ} {g : Nat → Fft3L}
    (S : SetUp3 P a st f) (G : SetUp3L b P a st g) {e : Bool} (al : Nat → Nat → Bool) {J : Nat → Nat → Junk}
    {flag : Int} {n : Nat} {m m' : Nat → LMem ℝ} (h : Terminates e P (fun r => (f r).only1d (J r) flag n) m m') :
    (∃ m2, Terminates e P (fun r => (g r).only1d (al r) flag n) m m2) ↔ ∀ r < P, (g r).Usable b (al r) n := by
  have L := SetUp3L.like S G
  constructor
  · rintro ⟨m2, h2⟩ r hr
    have S' := S
    obtain ⟨c, rfl, rfl, rfl, _, R⟩ := S'.ready
    have hm : ∀ p ∈ [(g r).fftFast, (g r).fftMid, (g r).fftSlow],
        .loc (performLocL (al r) flag p n) ∈ (g r).only1d (al r) flag n := by
      intro p hp
      unfold Fft3L.only1d
      simp only [List.mem_cons, List.not_mem_nil, or_false] at hp
      rcases hp with rfl | rfl | rfl <;> simp
    have u1 := performLocL_usable (R.planFast r hr).plan (L r hr).fftFast (h2.loc_some hr (hm _ (by simp)))
    have u2 := performLocL_usable (R.planMid r hr).plan (L r hr).fftMid (h2.loc_some hr (hm _ (by simp)))
    have u3 := performLocL_usable (R.planSlow r hr).plan (L r hr).fftSlow (h2.loc_some hr (hm _ (by simp)))
    exact ⟨fun e => ⟨u1.1 e, u2.1 e, u3.1 e⟩, u1.2⟩
  · exact fun hu => ⟨m', (((C52_same_partial b S).2 g G).2 e al J flag n n m m' hu).2 h⟩

/-- `compute` with `remaponly` does the same with all packages, without conditions. -/
theorem C52_remaponly {b : Package} {P : Nat} {a : Args3} {st : Settings} {f : Nat → Fft3 ℝ} {g : Nat → Fft3L}
    (S : SetUp3 P a st f) (G : SetUp3L b P a st g) {e : Bool} (al : Nat → Nat → Bool) (J : Nat → Nat → Junk) {scaled : Bool}
    {flag : Int} {ai ao : Nat} {m m' : Nat → LMem ℝ} :
    Terminates e P (fun r => (g r).compute b (al r) scaled true flag ai ao) m m' ↔
      Terminates e P (fun r => (f r).compute (J r) scaled true flag ai ao) m m' := by
  have L := SetUp3L.like S G
  have hq : ∀ r < P, (g r).compute b (al r) scaled true flag ai ao = (f r).compute (J r) scaled true flag ai ao := by
    intro r hr
    have h := L r hr
    unfold Fft3.compute Fft3L.compute
    rw [h.same, h.prefast, h.fastmid, h.midslow, h.postslow, h.preslow, h.slowmid, h.midfast, h.postfast, h.insize, h.outsize]
    simp
  exact ⟨fun h => h.refine fun r hr => by rw [hq r hr]; exact .refl _, fun h => h.refine fun r hr => by rw [hq r hr]; exact .refl _⟩

/-! ## 2d -/

/-- **C52 in 2d, exactly.**  Where `compute` with KISS ends, with another package it ends (with the same result) if and only if the package's
conditions are met: with MKL every rank has a 1d FFT to do in every dimension, with FFTW3 the array `out` is aligned on every rank. -/
theorem C52_compute_iff_2d {b : Package} {w : Int} {P : Nat} {a : Args2} {st : Settings} {f : Nat → Fft2 ℝ} {g : Nat → Fft2L}
    (S : SetUp2 w P a st f) (G : SetUp2L b w P a st g) {e : Bool} (al : Nat → Nat → Bool) {J : Nat → Nat → Junk} {scaled : Bool}
    {flag : Int} {ai ao : Nat} {m m' : Nat → LMem ℝ}
    (h : Terminates e P (fun r => (f r).compute (J r) scaled false flag ai ao) m m') :
    (∃ m2, Terminates e P (fun r => (g r).compute b (al r) scaled false flag ai ao) m m2) ↔
      ∀ r < P, (g r).Usable b (al r) ao := by
  have L := SetUp2L.like S G
  constructor
  · rintro ⟨m2, h2⟩ r hr
    have S' := S
    obtain ⟨c, rfl, rfl, rfl, rfl, _, R⟩ := S'.ready
    have hm : ∀ p ∈ [(g r).fftFast, (g r).fftSlow],
        .loc (performLocL (al r) flag p ao) ∈ (g r).compute b (al r) scaled false flag ai ao := by
      intro p hp
      unfold Fft2L.compute
      simp only [List.mem_cons, List.not_mem_nil, or_false] at hp
      rcases hp with rfl | rfl <;> split_ifs <;> simp_all
    have u1 := performLocL_usable (R.planFast r hr).plan (L r hr).fftFast (h2.loc_some hr (hm _ (by simp)))
    have u3 := performLocL_usable (R.planSlow r hr).plan (L r hr).fftSlow (h2.loc_some hr (hm _ (by simp)))
    exact ⟨fun e => ⟨u1.1 e, u3.1 e⟩, u1.2⟩
  · exact fun hu => ⟨m', (((C52_same_2d_partial b S).2 g G).2 e al J flag ai ao m m' hu).1 scaled false h⟩

/-- The same for `only_1d_ffts`. -/
theorem C52_only1d_iff_2d {b : Package} {w : Int} {P : Nat} {a : Args2} {st : Settings} {f : Nat → Fft2 ℝ} {g : Nat → Fft2L}
    (S : SetUp2 w P a st f) (G : SetUp2L b w P a st g) {e : Bool} (al : Nat → Nat → Bool) {J : Nat → Nat → Junk}
    {flag : Int} {n : Nat} {m m' : Nat → LMem ℝ} (h : Terminates e P (fun r => (f r).only1d (J r) flag n) m m') :
    (∃ m2, Terminates e P (fun r => (g r).only1d (al r) flag n) m m2) ↔ ∀ r < P, (g r).Usable b (al r) n := by
  have L := SetUp2L.like S G
  constructor
  · rintro ⟨m2, h2⟩ r hr
    have S' := S
    obtain ⟨c, rfl, rfl, rfl, rfl, _, R⟩ := S'.ready
    have hm : ∀ p ∈ [(g r).fftFast, (g r).fftSlow],
        .loc (performLocL (al r) flag p n) ∈ (g r).only1d (al r) flag n := by
      intro p hp
      unfold Fft2L.only1d
      simp only [List.mem_cons, List.not_mem_nil, or_false] at hp
      rcases hp with rfl | rfl <;> simp
    have u1 := performLocL_usable (R.planFast r hr).plan (L r hr).fftFast (h2.loc_some hr (hm _ (by simp)))
    have u3 := performLocL_usable (R.planSlow r hr).plan (L r hr).fftSlow (h2.loc_some hr (hm _ (by simp)))
    exact ⟨fun e => ⟨u1.1 e, u3.1 e⟩, u1.2⟩
  · exact fun hu => ⟨m', (((C52_same_2d_partial b S).2 g G).2 e al J flag n n m m' hu).2 h⟩

/-- `compute` with `remaponly` does the same with all packages, without conditions. -/
theorem C52_remaponly_2d {b : Package} {w : Int} {P : Nat} {a : Args2} {st : Settings} {f : Nat → Fft2 ℝ} {g : Nat → Fft2L}
    (S : SetUp2 w P a st f) (G : SetUp2L b w P a st g) {e : Bool} (al : Nat → Nat → Bool) (J : Nat → Nat → Junk) {scaled : Bool}
    {flag : Int} {ai ao : Nat} {m m' : Nat → LMem ℝ} :
    Terminates e P (fun r => (g r).compute b (al r) scaled true flag ai ao) m m' ↔
      Terminates e P (fun r => (f r).compute (J r) scaled true flag ai ao) m m' := by
  have L := SetUp2L.like S G
  have hq : ∀ r < P, (g r).compute b (al r) scaled true flag ai ao = (f r).compute (J r) scaled true flag ai ao := by
    intro r hr
    have h := L r hr
    unfold Fft2.compute Fft2L.compute
    rw [h.same, h.prefast, h.fastslow, h.postslow, h.preslow, h.slowfast, h.postfast, h.insize, h.outsize]
    simp
  exact ⟨fun h => h.refine fun r hr => by rw [hq r hr]; exact .refl _, fun h => h.refine fun r hr => by rw [hq r hr]; exact .refl _⟩

/-- All of the hypotheses together: every package, with data on all ranks. -/
example (b : Package) (e : Bool) (J : Nat → Nat → Junk) : ∃ f g m m', SetUp3 2 (demo3 1) ⟨2, 1, 2⟩ f ∧
    SetUp3L b 2 (demo3 1) ⟨2, 1, 2⟩ g ∧ Terminates e 2 (fun r => (f r).compute (J r) true false 1 0 0) m m' := by
  have hst : Settings.Valid ⟨2, 1, 2⟩ := by simp [Settings.Valid]
  obtain ⟨f, S⟩ := setUp3_exists (demo3_valid 1 (by decide)) hst
  obtain ⟨g, G⟩ := setUp3L_exists b (demo3_valid 1 (by decide)) hst
  obtain ⟨m, hm⟩ := S.mem_in fun i j k => i + 10 * j + 100 * k
  obtain ⟨m', h, -⟩ := C21_forward_dft S e J true (hm 0).1 (hm 0).2
  exact ⟨f, g, m, m', S, G, h⟩

end FftMpi
