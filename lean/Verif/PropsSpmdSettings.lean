import Verif.PropsInt
import Verif.PropsSpmdTune
import Verif.SpmdSettings2
import Verif.SpmdSettings3

/-!
# C72: which settings the ranks have to share

The settings `collective`, `exchange` and `packflag` are public members of the object, that each rank sets on its own
(fft3d.h:29, fft2d.h:28).  Here every rank has its own settings.
-/

noncomputable section

namespace FftMpi

variable {α : Type}

/-! ## Remaps -/

/-- **C72, Remap3d**: each rank may have its own `packflag`; all ranks get what they get with that of rank 0. -/
theorem C72_remap3 {P : Nat} (hP : 0 < P) (ins outs : Nat → Box3) {permute : Int} (hm : permute = 0 ∨ permute = 1 ∨ permute = 2)
    {packflag : Nat → Int} (hp : ∀ r < P, packflag r = 0 ∨ packflag r = 1 ∨ packflag r = 2) (c : Bool) :
    ∃ x y : Nat → RemapObj α PackPlan3,
      Returns P (fun r => remapS dim3 P r (ins r) (outs r) 2 permute (packflag 0) c) x ∧
      Returns P (fun r => remapS dim3 P r (ins r) (outs r) 2 permute (packflag r) c) y ∧
      ∀ r < P, (y r).sendsize = (x r).sendsize ∧ (y r).recvsize = (x r).recvsize ∧
        ∀ inst ai ao, (y r).prog c inst ai ao = (x r).prog c inst ai ao := by
  obtain ⟨x, hx⟩ := remapSetup_total dim3 P ins outs 2 permute (packflag 0) c
  have L := Does.remap dim3 collide3_symm P ins outs 2 permute (packflag 0) c x hx
  obtain ⟨y, K, hA⟩ := L.sim hP fun r hr => Sim.remap (sameCopy3 (hp r hr) (hp 0 hP) hm) P r (ins r) (outs r) c
  refine ⟨x, y, L.returns, K.returns, fun r hr => ⟨(hA r hr).send, (hA r hr).recv, fun inst ai ao => ?_⟩⟩
  have := (hA r hr).prog (y r).coll c inst ai ao
  rw [(hA r hr).coll] at this
  rw [show ({ x r with coll := (x r).coll } : RemapObj α PackPlan3) = x r from rfl, ← (hA r hr).coll] at this
  exact this

/-- **C72, Remap2d.** -/
theorem C72_remap2 {w : Int} {P : Nat} (hP : 0 < P) (ins outs : Nat → Box2) {permute : Int} (hm : permute = 0 ∨ permute = 1)
    {packflag : Nat → Int} (hp : ∀ r < P, FlagOk2 w (packflag r)) (c : Bool) :
    ∃ x y : Nat → RemapObj α PackPlan2,
      Returns P (fun r => remapS (dim2 w) P r (ins r) (outs r) 2 permute (packflag 0) c) x ∧
      Returns P (fun r => remapS (dim2 w) P r (ins r) (outs r) 2 permute (packflag r) c) y ∧
      ∀ r < P, (y r).sendsize = (x r).sendsize ∧ (y r).recvsize = (x r).recvsize ∧
        ∀ inst ai ao, (y r).prog c inst ai ao = (x r).prog c inst ai ao := by
  obtain ⟨x, hx⟩ := remapSetup_total (dim2 w) P ins outs 2 permute (packflag 0) c
  have L := Does.remap (dim2 w) collide2_symm P ins outs 2 permute (packflag 0) c x hx
  obtain ⟨y, K, hA⟩ := L.sim hP fun r hr => Sim.remap (sameCopy2 (hp r hr) (hp 0 hP) hm) P r (ins r) (outs r) c
  refine ⟨x, y, L.returns, K.returns, fun r hr => ⟨(hA r hr).send, (hA r hr).recv, fun inst ai ao => ?_⟩⟩
  have := (hA r hr).prog (y r).coll c inst ai ao
  rw [(hA r hr).coll] at this
  rw [show ({ x r with coll := (x r).coll } : RemapObj α PackPlan2) = x r from rfl, ← (hA r hr).coll] at this
  exact this

theorem collectivePp_iff (x y : Int) : collectivePp x = collectivePp y ↔ (x = 0 ↔ y = 0) := by
  unfold collectivePp
  split_ifs <;> simp_all

theorem collectiveBp_iff (x y : Int) : collectiveBp x = collectiveBp y ↔ (x = 1 ↔ y = 1) := by
  unfold collectiveBp
  split_ifs <;> simp_all

/-! ## FFT3d -/

/-- The settings that the ranks have to share: whether `exchange` is 0, and what `collective` says about those kinds of
remaps that there are. -/
def Args3.Share (a : Args3) (P : Nat) (g : Grids) (st : Nat → Settings) : Prop :=
  (∀ r < P, ((st r).exchange = 0 ↔ (st 0).exchange = 0)) ∧
  ((st 0).exchange = 0 → ∀ r < P, ((st r).collective = 0 ↔ (st 0).collective = 0)) ∧
  ((st 0).exchange ≠ 0 ∨ preflag P a = true ∨ postflag P a g = true →
    ∀ r < P, ((st r).collective = 1 ↔ (st 0).collective = 1))

/-- The objects have the same sizes and all methods that work with data do the same. -/
structure Fft3.Equal (f f' : Fft3 ℝ) : Prop where
  insize : f.insize = f'.insize
  outsize : f.outsize = f'.outsize
  fftsize : f.fftsize = f'.fftsize
  sendsize : f.sendsize = f'.sendsize
  recvsize : f.recvsize = f'.recvsize
  compute : f.compute = f'.compute
  only1d : f.only1d = f'.only1d
  onlyRemaps : f.onlyRemaps = f'.onlyRemaps
  onlyOneRemap : f.onlyOneRemap = f'.onlyOneRemap

/-- **C72, FFT3d**: for any settings of the ranks `setup` returns on all ranks if they share what they have to, and hangs
if not.  If it returns, the objects are equal to those with the settings of rank 0, up to how the data is copied. -/
theorem C72_settings3 {P : Nat} {a : Args3} {st : Nat → Settings} {g : Grids} (hv : a.Valid P)
    (hst : ∀ r < P, (st r).Valid) (hg : setupGrids P a (st 0).exchange = some g) :
    (a.Share P g st → ∃ f f0 : Nat → Fft3 ℝ, SetUp3 P a (st 0) f0 ∧ Returns P (fun r => (a.here (st r) P r).setup) (fun r => .ok (f r)) ∧
      ∀ r < P, (f r).Equal (f0 r)) ∧
    (¬a.Share P g st → Hangs P (fun r => (a.here (st r) P r).setup (α := ℝ))) := by
  have hP := hv.procs
  by_cases he : ∀ r < P, ((st r).exchange = 0 ↔ (st 0).exchange = 0)
  · obtain ⟨f0, S⟩ := setUp3_exists hv (hst 0 hP)
    obtain ⟨h1, h2⟩ := setup3_ranks hP hv.check hst he hg S.result
    have hA : a.Share P g st ↔ a.Agree (st 0) P g (fun r => (st r).collective) := by
      unfold Args3.Share Args3.Agree
      simp only [collectivePp_iff, collectiveBp_iff]
      exact ⟨fun h => h.2, fun h => ⟨he, h⟩⟩
    rw [hA]
    refine ⟨fun h => ?_, h2⟩
    obtain ⟨y, R, hy⟩ := h1 h
    have : ∀ r < P, ∃ f, y r = .ok f ∧ f.Alike (f0 r) := by
      intro r hr
      have := hy r hr
      cases e : y r with
      | error x => rw [e] at this; exact absurd this id
      | ok f => rw [e] at this; exact ⟨f, rfl, this⟩
    have : Nonempty (Fft3 ℝ) := ⟨f0 0⟩
    choose! f hf using ‹∀ r < P, ∃ f, y r = .ok f ∧ f.Alike (f0 r)›
    refine ⟨f, f0, S, (R.congr (fun _ _ => rfl) fun r hr => (hf r hr).1).returns, fun r hr => ?_⟩
    have A := (hf r hr).2
    obtain ⟨p1, p2, p3, p4⟩ := A.progs
    exact ⟨A.insize, A.outsize, A.fftsize, A.sendsize, A.recvsize, by funext; exact p1 .., by funext; exact p2 ..,
      by funext; exact p3 .., by funext; exact p4 ..⟩
  · refine ⟨fun h => absurd h.1 he, fun _ => ?_⟩
    have ex : ∀ r < P, ∃ g, setupGrids P a (st r).exchange = some g := fun r _ =>
      (setupGrids_ok hv.round hv.procs hv.fast hv.mid hv.slow (st r).exchange).imp fun _ h => h.1
    have : Nonempty Grids := ⟨g⟩
    choose! G hG using ex
    push Not at he
    obtain ⟨r, hr, he⟩ := he
    rcases he with ⟨h1, h2⟩ | ⟨h1, h2⟩
    · exact hangs_exchange3 a st P hv.check hG hr hP h1 h2
    · exact hangs_exchange3 a st P hv.check hG hP hr h2 h1

/-- **C72, FFT3d, transform**: if the ranks share what they have to, a forward transform gives the DFT. -/
theorem C72_dft3 {P : Nat} {a : Args3} {st : Nat → Settings} {g : Grids} (hv : a.Valid P)
    (hst : ∀ r < P, (st r).Valid) (hg : setupGrids P a (st 0).exchange = some g) (h : a.Share P g st) :
    ∃ f : Nat → Fft3 ℝ, Returns P (fun r => (a.here (st r) P r).setup) (fun r => .ok (f r)) ∧
      ∀ (e : Bool) (J : Nat → Nat → Junk) (scaled : Bool) (n : Nat) (X : Grid3) (m : Nat → LMem ℝ),
        Holds P 0 a.ins n X m → Bufs P f n m →
        ∃ m', Terminates e P (fun r => (f r).compute (J r) scaled false 1 n n) m m' ∧
          Holds P a.permute a.outs n (a.dft false X) m' ∧ Kept P f n m m' := by
  obtain ⟨f, f0, S, R, hE⟩ := (C72_settings3 hv hst hg).1 h
  refine ⟨f, R, fun e J scaled n X m hX hb => ?_⟩
  have hb0 : Bufs P f0 n m := ⟨fun r hr => (hE r hr).fftsize ▸ hb.data r hr, fun r hr => (hE r hr).sendsize ▸ hb.sb r hr,
    fun r hr => (hE r hr).recvsize ▸ hb.rb r hr⟩
  obtain ⟨m', T, H, K⟩ := C21_forward_dft S e J scaled hX hb0
  refine ⟨m', T.congr fun r hr => by rw [(hE r hr).compute], H, fun r hr => ⟨(K r hr).1, fun x hx => (K r hr).2 x ?_⟩⟩
  rwa [← (hE r hr).fftsize]
/-! ## FFT2d -/

/-- The settings that the ranks have to share: whether `exchange` is 0, and what `collective` says about those kinds of
remaps that there are. -/
def Args2.Share (a : Args2) (P : Nat) (st : Nat → Settings) : Prop :=
  (∀ r < P, ((st r).exchange = 0 ↔ (st 0).exchange = 0)) ∧
  ((st 0).exchange = 0 → ∀ r < P, ((st r).collective = 0 ↔ (st 0).collective = 0)) ∧
  ((st 0).exchange ≠ 0 ∨ preflag2 P a = true ∨ postflag2 P a = true →
    ∀ r < P, ((st r).collective = 1 ↔ (st 0).collective = 1))

/-- The objects have the same sizes and all methods that work with data do the same. -/
structure Fft2.Equal (f f' : Fft2 ℝ) : Prop where
  insize : f.insize = f'.insize
  outsize : f.outsize = f'.outsize
  fftsize : f.fftsize = f'.fftsize
  sendsize : f.sendsize = f'.sendsize
  recvsize : f.recvsize = f'.recvsize
  compute : f.compute = f'.compute
  only1d : f.only1d = f'.only1d
  onlyRemaps : f.onlyRemaps = f'.onlyRemaps
  onlyOneRemap : f.onlyOneRemap = f'.onlyOneRemap

/-- **C72, FFT2d**: for any settings of the ranks `setup` returns on all ranks if they share what they have to, and hangs
if not.  If it returns, the objects are equal to those with the settings of rank 0, up to how the data is copied. -/
theorem C72_settings2 {w : Int} {P : Nat} {a : Args2} {st : Nat → Settings} {g : Nat × Nat} (hv : a.Valid P)
    (hst : ∀ r < P, (st r).Valid2 w) (hg : setupBrick2 P a (st 0).exchange = some g) :
    (a.Share P st → ∃ f f0 : Nat → Fft2 ℝ, SetUp2 w P a (st 0) f0 ∧ Returns P (fun r => (a.here w (st r) P r).setup) (fun r => .ok (f r)) ∧
      ∀ r < P, (f r).Equal (f0 r)) ∧
    (¬a.Share P st → Hangs P (fun r => (a.here w (st r) P r).setup (α := ℝ))) := by
  have hP := hv.procs
  by_cases he : ∀ r < P, ((st r).exchange = 0 ↔ (st 0).exchange = 0)
  · obtain ⟨f0, S⟩ := setUp2_exists hv (hst 0 hP)
    obtain ⟨h1, h2⟩ := setup2_ranks hP hv.check hst he hg S.result
    have hA : a.Share P st ↔ a.Agree (st 0) P (fun r => (st r).collective) := by
      unfold Args2.Share Args2.Agree
      simp only [collectivePp_iff, collectiveBp_iff]
      exact ⟨fun h => h.2, fun h => ⟨he, h⟩⟩
    rw [hA]
    refine ⟨fun h => ?_, h2⟩
    obtain ⟨y, R, hy⟩ := h1 h
    have : ∀ r < P, ∃ f, y r = .ok f ∧ f.Alike (f0 r) := by
      intro r hr
      have := hy r hr
      cases e : y r with
      | error x => rw [e] at this; exact absurd this id
      | ok f => rw [e] at this; exact ⟨f, rfl, this⟩
    have : Nonempty (Fft2 ℝ) := ⟨f0 0⟩
    choose! f hf using ‹∀ r < P, ∃ f, y r = .ok f ∧ f.Alike (f0 r)›
    refine ⟨f, f0, S, (R.congr (fun _ _ => rfl) fun r hr => (hf r hr).1).returns, fun r hr => ?_⟩
    have A := (hf r hr).2
    obtain ⟨p1, p2, p3, p4⟩ := A.progs
    exact ⟨A.insize, A.outsize, A.fftsize, A.sendsize, A.recvsize, by funext; exact p1 .., by funext; exact p2 ..,
      by funext; exact p3 .., by funext; exact p4 ..⟩
  · refine ⟨fun h => absurd h.1 he, fun _ => ?_⟩
    have ex : ∀ r < P, ∃ g, setupBrick2 P a (st r).exchange = some g := fun r _ =>
      (setupBrick2_ok hv.round hv.procs hv.fast hv.slow (st r).exchange).imp fun _ h => h.1
    have : Nonempty (Nat × Nat) := ⟨g⟩
    choose! G hG using ex
    push Not at he
    obtain ⟨r, hr, he⟩ := he
    rcases he with ⟨h1, h2⟩ | ⟨h1, h2⟩
    · exact hangs_exchange2 a w st P hv.check hG hr hP h1 h2
    · exact hangs_exchange2 a w st P hv.check hG hP hr h2 h1

/-- **C72, FFT2d, transform**: if the ranks share what they have to, a forward transform gives the DFT. -/
theorem C72_dft2 {w : Int} {P : Nat} {a : Args2} {st : Nat → Settings} {g : Nat × Nat} (hv : a.Valid P)
    (hst : ∀ r < P, (st r).Valid2 w) (hg : setupBrick2 P a (st 0).exchange = some g) (h : a.Share P st) :
    ∃ f : Nat → Fft2 ℝ, Returns P (fun r => (a.here w (st r) P r).setup) (fun r => .ok (f r)) ∧
      ∀ (e : Bool) (J : Nat → Nat → Junk) (scaled : Bool) (n : Nat) (X : Grid2) (m : Nat → LMem ℝ),
        Holds2 P 0 a.ins n X m → Bufs2 P f n m →
        ∃ m', Terminates e P (fun r => (f r).compute (J r) scaled false 1 n n) m m' ∧
          Holds2 P a.permute a.outs n (a.dft false X) m' ∧ Kept2 P f n m m' := by
  obtain ⟨f, f0, S, R, hE⟩ := (C72_settings2 hv hst hg).1 h
  refine ⟨f, R, fun e J scaled n X m hX hb => ?_⟩
  have hb0 : Bufs2 P f0 n m := ⟨fun r hr => (hE r hr).fftsize ▸ hb.data r hr, fun r hr => (hE r hr).sendsize ▸ hb.sb r hr,
    fun r hr => (hE r hr).recvsize ▸ hb.rb r hr⟩
  obtain ⟨m', T, H, K⟩ := C41_forward_dft S e J scaled hX hb0
  refine ⟨m', T.congr fun r hr => by rw [(hE r hr).compute], H, fun r hr => ⟨(K r hr).1, fun x hx => (K r hr).2 x ?_⟩⟩
  rwa [← (hE r hr).fftsize]

/-! ## `tune` -/

/-- **C71, all calls**: each call of `setup` in `tune` returns on all ranks if the settings that the ranks have come
to share what they have to, and hangs if not. -/
theorem C71_calls {P : Nat} {g : Args3} {fsz : Nat → Settings → Int} {clk : Nat → Clock} {t : TuneArgs} {s r : Nat → TuneSt}
    (hv : g.Valid P) (hst : ∀ a < P, (s a).st.Valid)
    (h : ∀ a < P, tune (fsz a) (clk 0) (clk a) false t (s a) = some (.ok (r a)))
    (hbig : ∀ a < P, ∀ k, ((clk a).run k).tfft < tuneBIG) {st : Nat → Settings}
    (hq : (∃ (k : Nat) (q : Nat → Trial), (∀ a < P, (r a).runs[k]? = some (q a)) ∧ st = fun a => (q a).st) ∨
      st = fun a => (r a).st) {gr : Grids} (hg : setupGrids P g (st 0).exchange = some gr) :
    (g.Share P gr st → ∃ f f0 : Nat → Fft3 ℝ, SetUp3 P g (st 0) f0 ∧ Returns P (fun a => (g.here (st a) P a).setup) (fun a => .ok (f a)) ∧
      ∀ a < P, (f a).Equal (f0 a)) ∧
    (¬g.Share P gr st → Hangs P (fun a => (g.here (st a) P a).setup (α := ℝ))) := by
  refine C72_settings3 hv (fun a ha => ?_) hg
  obtain ⟨V, W⟩ := tune_runs_valid (h a ha) (hbig a ha) (hst a ha)
  rcases hq with ⟨k, q, hq, rfl⟩ | rfl
  · exact W k _ (hq a ha)
  · exact V


/-- **C71, all calls, FFT2d with doubles**: each call of `setup` in `tune` returns on all ranks if the settings that the ranks have come
to share what they have to, and hangs if not. -/
theorem C71_calls2 {P : Nat} {g : Args2} {fsz : Nat → Settings → Int} {clk : Nat → Clock} {t : TuneArgs} {s r : Nat → TuneSt}
    (hv : g.Valid P) (hst : ∀ a < P, (s a).st.Valid)
    (h : ∀ a < P, tune (fsz a) (clk 0) (clk a) false t (s a) = some (.ok (r a)))
    (hbig : ∀ a < P, ∀ k, ((clk a).run k).tfft < tuneBIG) {st : Nat → Settings}
    (hq : (∃ (k : Nat) (q : Nat → Trial), (∀ a < P, (r a).runs[k]? = some (q a)) ∧ st = fun a => (q a).st) ∨
      st = fun a => (r a).st) {gr : Nat × Nat} (hg : setupBrick2 P g (st 0).exchange = some gr) :
    (g.Share P st → ∃ f f0 : Nat → Fft2 ℝ, SetUp2 1 P g (st 0) f0 ∧ Returns P (fun a => (g.here 1 (st a) P a).setup) (fun a => .ok (f a)) ∧
      ∀ a < P, (f a).Equal (f0 a)) ∧
    (¬g.Share P st → Hangs P (fun a => (g.here 1 (st a) P a).setup (α := ℝ))) := by
  refine C72_settings2 hv (fun a ha => ?_) hg
  obtain ⟨V, W⟩ := tune_runs_valid (h a ha) (hbig a ha) (hst a ha)
  rcases hq with ⟨k, q, hq, rfl⟩ | rfl
  · exact valid2_double (W k _ (hq a ha))
  · exact valid2_double V

/-! ## Examples -/

/-- Ranks with different `packflag`, different nonzero `exchange` and different `collective` (0 and 2, that both mean
point-to-point messages between bricks and pencils). -/
example : ∃ f : Nat → Fft3 ℝ,
    Returns 2 (fun r => ((demo3 2).here (if r = 0 then ⟨0, 1, 2⟩ else ⟨2, -3, 0⟩) 2 r).setup) (fun r => .ok (f r)) := by
  obtain ⟨g, hg, -⟩ := setupGrids_ok (demo3_valid 2 (by decide)).round (demo3_valid 2 (by decide)).procs (demo3_valid 2 (by decide)).fast
    (demo3_valid 2 (by decide)).mid (demo3_valid 2 (by decide)).slow 1
  obtain ⟨f, hf, -⟩ := C72_dft3 (st := fun r => if r = 0 then ⟨0, 1, 2⟩ else ⟨2, -3, 0⟩) (demo3_valid 2 (by decide))
    (fun r _ => by by_cases h : r = 0 <;> simp [h, Settings.Valid]) hg
    ⟨fun r _ => by by_cases h : r = 0 <;> simp [h], fun h => by simp at h, fun _ r _ => by by_cases h : r = 0 <;> simp [h]⟩
  exact ⟨f, hf⟩

/-- A rank with `exchange` 0 and one with `exchange` 1. -/
example : Hangs 2 (fun r => ((demo3 2).here ⟨2, r, 2⟩ 2 r).setup (α := ℝ)) := by
  obtain ⟨g, hg, -⟩ := setupGrids_ok (demo3_valid 2 (by decide)).round (demo3_valid 2 (by decide)).procs (demo3_valid 2 (by decide)).fast
    (demo3_valid 2 (by decide)).mid (demo3_valid 2 (by decide)).slow 0
  refine (C72_settings3 (st := fun r => ⟨2, r, 2⟩) (demo3_valid 2 (by decide)) (fun _ _ => by simp [Settings.Valid]) hg).2
    fun h => ?_
  have := h.1 1 (by decide)
  simp at this

example : ∃ f : Nat → Fft2 ℝ,
    Returns 2 (fun r => ((plane2 1).here 1 ⟨1, 0, r⟩ 2 r).setup) (fun r => .ok (f r)) := by
  obtain ⟨f, hf, -⟩ := C72_dft2 (w := 1) (g := (0, 0)) (st := fun r => ⟨1, 0, r⟩) (plane2_valid 1 (by decide))
    (fun r hr => by interval_cases r <;> simp [Settings.Valid2, FlagOk2]) rfl
    ⟨fun r _ => by simp, fun _ r _ => by simp, fun _ r _ => by simp⟩
  exact ⟨f, hf⟩

example : Hangs 2 (fun r => ((plane2 1).here 1 ⟨1, r, 0⟩ 2 r).setup (α := ℝ)) := by
  refine (C72_settings2 (w := 1) (g := (0, 0)) (st := fun r => ⟨1, r, 0⟩) (plane2_valid 1 (by decide))
    (fun r hr => by simp [Settings.Valid2, FlagOk2]) rfl).2 fun h => ?_
  have := h.1 1 (by decide)
  simp at this

end FftMpi
