import Verif.Fft2dRun
import Verif.PropsFft3dUse

/-!
# Properties of `FFT2d`: layouts, transforms, sizes, scaling, settings

As `PropsFft3d.lean` and `PropsFft3dUse.lean`.  `SetUp2 w P a st f`: `P` ranks called `FFT2d::setup` with
arguments `a` and settings `st`, and it made the objects `f 0`, ..., `f (P-1)`; `w` is
`sizeof(double)/sizeof(FFT_SCALAR)`, 1 or (single precision) 2.  In single precision `packflag` must not be 2
(see C40).  The specification of the transform is `dft2` (`Dft2.lean`).
-/

noncomputable section

namespace FftMpi

/-- All ranks called `setup` with valid arguments. -/
structure SetUp2 (w : Int) (P : Nat) (a : Args2) (st : Settings) (f : Nat → Fft2 ℝ) : Prop where
  args : a.Valid P
  settings : st.Valid2 w
  result : ∀ r < P, fft2Setup w P r a st = some (.ok (f r))

/-- Nothing but array `n` has changed, and in array `n` at most the first `fftsize` complex numbers. -/
def Kept2 (P : Nat) (f : Nat → Fft2 ℝ) (n : Nat) (m m' : Nat → LMem ℝ) : Prop :=
  ∀ r < P, (∀ n', n' ≠ n → (m' r).ub n' = (m r).ub n') ∧
    ∀ x, (x < 0 ∨ 2 * (f r).fftsize ≤ x) → (m' r).ub n x = (m r).ub n x

theorem Step.kept2 {e : Bool} {P : Nat} {f : Nat → Fft2 ℝ} {n : Nat} {prog : Nat → List (Instr ℝ)}
    {m m' : Nat → LMem ℝ} (h : Step e P (fsz2 f) n prog m m') : Kept2 P f n m m' :=
  fun r hr => ⟨fun n' hn => h.other r hr n' hn, fun x hx => h.frame r hr x hx⟩

/-- The DFT of the grid of the arguments. -/
abbrev Args2.dft (a : Args2) (backward : Bool) (X : Grid2) : Grid2 :=
  dft2 a.nfast.toNat a.nslow.toNat backward X

/-- Number of grid points. -/
def Args2.N (a : Args2) : ℝ := a.nfast * a.nslow

theorem Args2.Valid.N_pos {P : Nat} {a : Args2} (h : a.Valid P) : 0 < a.N := by
  have h1 := h.fast.1; have h3 := h.slow.1
  have e1 : (2 : ℝ) ≤ a.nfast := by exact_mod_cast h1
  have e3 : (2 : ℝ) ≤ a.nslow := by exact_mod_cast h3
  unfold Args2.N
  positivity

theorem SetUp2.ready {w : Int} {P : Nat} {a : Args2} {st : Settings} {f : Nat → Fft2 ℝ}
    (S : SetUp2 w P a st f) :
    ∃ c : Create2, c.w = w ∧ c.P = P ∧ c.a = a ∧ c.st = st ∧ setupBrick2 P a st.exchange = some c.g ∧ Ready2 c f :=
  fft2Setup_ready S.args S.settings S.result

/-! ## A running example: 2 ranks, 2 x 4 grid, halves in `j` to halves in `i` -/

/-- Example arguments. -/
def plane2 (permute : Int) : Args2 where
  nfast := 2
  nslow := 4
  ins r := ⟨0, 1, 2 * r, 2 * r + 1⟩
  outs r := ⟨r, r, 0, 3⟩
  permute := permute

theorem plane2_valid (p : Int) (hp : p = 0 ∨ p = 1) : (plane2 p).Valid 2 where
  procs := by decide
  fast := by simp [plane2]
  slow := by simp [plane2]
  factors := by
    intro n hn
    simp only [plane2] at hn
    rcases hn with rfl | rfl
    · exact fiveSmooth_of_dvd (m := 2) (k := 1) rfl (by decide)
    · exact fiveSmooth_of_dvd (m := 4) (k := 2) rfl (by decide)
  tilesIn :=
    { inside := by intro r hr i j h; simp only [plane2, Box2.Has] at h ⊢; omega
      owner := by
        intro i j hi hj
        simp only [plane2] at hi hj
        exact ⟨(j / 2).toNat, by omega, by simp only [plane2, Box2.Has]; omega⟩
      disjoint := by intro r hr s hs i j h1 h2; simp only [plane2, Box2.Has] at h1 h2; omega }
  tilesOut :=
    { inside := by intro r hr i j h; simp only [plane2, Box2.Has] at h ⊢; omega
      owner := by
        intro i j hi hj
        simp only [plane2] at hi hj
        exact ⟨i.toNat, by omega, by simp only [plane2, Box2.Has]; omega⟩
      disjoint := by intro r hr s hs i j h1 h2; simp only [plane2, Box2.Has] at h1 h2; omega }
  properIn := by
    intro r hr
    simp only [plane2, Box2.Proper, Box2.Within, Box2.isize, Box2.jsize]
    omega
  properOut := by
    intro r hr
    simp only [plane2, Box2.Proper, Box2.isize, Box2.jsize]
    omega
  permute := hp

/-- `setup` succeeds for all valid arguments. -/
theorem setUp2_exists {w : Int} {P : Nat} {a : Args2} {st : Settings} (hv : a.Valid P) (hst : st.Valid2 w) :
    ∃ f, SetUp2 w P a st f := by
  obtain ⟨f, hf⟩ := fft2Setup_exists hv hst
  exact ⟨f, hv, hst, hf⟩

/-- Memory in which every array holds `X` in the layout `bs`; the buffers have the sizes `ss`, `rs`. -/
def memOf2 (f : Nat → Fft2 ℝ) (p : Int) (bs : Nat → Box2) (X : Grid2) (ss rs : Nat → Int) (r : Nat) :
    LMem ℝ where
  ub _ := arrayOf p (bs r).lift (liftGrid X) (f r).fftsize
  sb x := if 0 ≤ x ∧ x < ss r then some 0 else none
  rb x := if 0 ≤ x ∧ x < rs r then some 0 else none

theorem memOf2_bufs {P : Nat} {f : Nat → Fft2 ℝ} {p : Int} {bs : Nat → Box2} {X : Grid2} {ss rs : Nat → Int}
    (n : Nat) (h1 : ∀ r < P, (f r).sendsize ≤ ss r) (h2 : ∀ r < P, (f r).recvsize ≤ rs r) :
    Bufs2 P f n (memOf2 f p bs X ss rs) where
  data _ _ := arrayOf_accessible _ _ _ _
  sb r hr := by
    intro x hx0 hx1
    have := h1 r hr
    simp only [memOf2]
    rw [if_pos (by omega)]; rfl
  rb r hr := by
    intro x hx0 hx1
    have := h2 r hr
    simp only [memOf2]
    rw [if_pos (by omega)]; rfl

theorem memOf2_holds {P : Nat} {f : Nat → Fft2 ℝ} {p : Int} (hp : p = 0 ∨ p = 1) {bs : Nat → Box2} {X : Grid2}
    {ss rs : Nat → Int} (n : Nat) (h : ∀ r < P, (bs r).count ≤ (f r).fftsize) :
    Holds2 P p bs n X (memOf2 f p bs X ss rs) := by
  intro r hr
  exact (holdsBox2_lift hp).mpr (arrayOf_holds (by rw [Box2.lift_count]; exact h r hr))

/-- Memory of exactly the sizes returned by `setup` in which every array holds `X` in the input layout. -/
theorem SetUp2.mem_in {w : Int} {P : Nat} {a : Args2} {st : Settings} {f : Nat → Fft2 ℝ}
    (S : SetUp2 w P a st f) (X : Grid2) : ∃ m, ∀ n, Holds2 P 0 a.ins n X m ∧ Bufs2 P f n m := by
  obtain ⟨c, rfl, rfl, rfl, rfl, _, R⟩ := S.ready
  exact ⟨memOf2 f 0 c.a.ins X (fun r => (f r).sendsize) (fun r => (f r).recvsize), fun n =>
    ⟨memOf2_holds (Or.inl rfl) n fun r hr => R.size_ins hr,
      memOf2_bufs n (fun _ _ => le_rfl) (fun _ _ => le_rfl)⟩⟩

/-- The same for the output layout. -/
theorem SetUp2.mem_out {w : Int} {P : Nat} {a : Args2} {st : Settings} {f : Nat → Fft2 ℝ}
    (S : SetUp2 w P a st f) (X : Grid2) : ∃ m, ∀ n, Holds2 P a.permute a.outs n X m ∧ Bufs2 P f n m := by
  obtain ⟨c, rfl, rfl, rfl, rfl, _, R⟩ := S.ready
  exact ⟨memOf2 f c.a.permute c.a.outs X (fun r => (f r).sendsize) (fun r => (f r).recvsize), fun n =>
    ⟨memOf2_holds R.args.permute n fun r hr => R.size_outs hr,
      memOf2_bufs n (fun _ _ => le_rfl) (fun _ _ => le_rfl)⟩⟩

/-! ## C17 in 2d -/

/-- Two boxes have about the same extent in every dimension. -/
def Box2.Close (b b' : Box2) : Prop := |b.isize - b'.isize| ≤ 1 ∧ |b.jsize - b'.jsize| ≤ 1

theorem gridBox2_close {np : Nat × Nat} {P : Nat} (h : np.1 * np.2 = P) (hP : 0 < P)
    (n1 n2 r s : Nat) : (gridBox2 np n1 n2 r).Close (gridBox2 np n1 n2 s) := by
  have p1 : 0 < np.1 := Nat.pos_of_ne_zero (by rintro h0; rw [h0] at h; simp at h; omega)
  have p2 : 0 < np.2 := Nat.pos_of_ne_zero (by rintro h0; rw [h0] at h; simp at h; omega)
  unfold Box2.Close Box2.isize Box2.jsize gridBox2
  simp only
  have a1 := block_size (n := n1) (a := (gridCoords2 np r).1) p1
  have a2 := block_size (n := n1) (a := (gridCoords2 np s).1) p1
  have b1 := block_size (n := n2) (a := (gridCoords2 np r).2) p2
  have b2 := block_size (n := n2) (a := (gridCoords2 np s).2) p2
  refine ⟨abs_le.mpr ⟨?_, ?_⟩, abs_le.mpr ⟨?_, ?_⟩⟩ <;> omega

/-- **C17 in 2d.**  For all valid arguments and all numbers of ranks: the fast, slow and brick layouts tile
the grid, the pencils span their whole dimension, and any two ranks' extents differ by at most one point in
each dimension - except that the fast (slow) layout is the user's input (output) layout if all its boxes are
already pencils in the right dimension. -/
theorem C17_layouts_tile_2d {P : Nat} {a : Args2} (hv : a.Valid P) {exchange : Int} {g : Nat × Nat}
    (hg : setupBrick2 P a exchange = some g) :
    (Tiles2 P (fastBox2 P a) a.nfast a.nslow ∧
      (∀ r < P, (fastBox2 P a r).ilo = 0 ∧ (fastBox2 P a r).ihi = a.nfast - 1) ∧
      ((∀ r < P, fastBox2 P a r = a.ins r) ∨
        ∀ r < P, ∀ s < P, (fastBox2 P a r).Close (fastBox2 P a s))) ∧
    (Tiles2 P (slowBox2 P a) a.nfast a.nslow ∧
      (∀ r < P, (slowBox2 P a r).jlo = 0 ∧ (slowBox2 P a r).jhi = a.nslow - 1) ∧
      ((∀ r < P, slowBox2 P a r = a.outs r) ∨
        ∀ r < P, ∀ s < P, (slowBox2 P a r).Close (slowBox2 P a s))) ∧
    (exchange ≠ 0 → Tiles2 P (brickBox2 a g) a.nfast a.nslow ∧
      ∀ r < P, ∀ s < P, (brickBox2 a g r).Close (brickBox2 a g s)) := by
  have h1 := hv.fast; have h3 := hv.slow
  obtain ⟨g', hg', hgo⟩ := setupBrick2_ok hv.round hv.procs h1 h3 exchange
  rw [hg] at hg'
  obtain rfl := Option.some.inj hg'
  refine ⟨⟨fastBox2_tiles hv, fun r hr => fastBox2_full hr, ?_⟩,
    ⟨slowBox2_tiles hv, fun r hr => slowBox2_full hr, ?_⟩,
    fun hx => ⟨brickBox2_tiles hv hgo hx, ?_⟩⟩
  · by_cases hp : preflag2 P a = true
    · right
      intro r _ s _
      rw [fastBox2_eq (by omega) hp, fastBox2_eq (by omega) hp]
      exact gridBox2_close (by simp) hv.procs _ _ _ _
    · left
      intro r _
      simp [fastBox2, hp]
  · by_cases hp : slowflag2 P a = true
    · right
      intro r hr s hs
      rw [slowBox2_eq (by omega) hp hr, slowBox2_eq (by omega) hp hs]
      exact gridBox2_close (by simp) hv.procs _ _ _ _
    · left
      intro r _
      simp [slowBox2, hp]
  · intro r _ s _
    exact gridBox2_close (hgo hx) hv.procs _ _ _ _

example : ∃ g, setupBrick2 2 (plane2 1) 1 = some g ∧ Tiles2 2 (brickBox2 (plane2 1) g) 2 4 := by
  have hv := plane2_valid 1 (by decide)
  obtain ⟨g, hg, _⟩ := setupBrick2_ok hv.round hv.procs hv.fast hv.slow 1
  exact ⟨g, hg, ((C17_layouts_tile_2d hv hg).2.2 (by decide)).1⟩

/-! ## C41 -/

/-- **C41.**  For all valid arguments, all settings, all data, all schedules: after
`FFT2d::compute(data,data,1)` on all ranks, each rank's array holds the 2d DFT of the global input on its
output box, in the order selected by `permute`.  Nothing else has changed. -/
theorem C41_forward_dft {w : Int} {P : Nat} {a : Args2} {st : Settings} {f : Nat → Fft2 ℝ}
    (S : SetUp2 w P a st f) (e : Bool) (J : Nat → Nat → Junk) (scaled : Bool) {n : Nat} {X : Grid2}
    {m : Nat → LMem ℝ} (hX : Holds2 P 0 a.ins n X m) (hb : Bufs2 P f n m) :
    ∃ m', Terminates e P (fun r => (f r).compute (J r) scaled false 1 n n) m m' ∧
      Holds2 P a.permute a.outs n (a.dft false X) m' ∧ Kept2 P f n m m' := by
  obtain ⟨c, rfl, rfl, rfl, rfl, _, R⟩ := S.ready
  obtain ⟨m', s, h⟩ := R.compute_fwd e J scaled false (flag := 1) (Or.inl rfl) (ai := n) (ao := n)
    (Or.inl rfl) hX hb
  exact ⟨m', s.ok.terminates, by simpa [Ready2.effect] using h, s.kept2⟩

/-- Example: the hypotheses are met, in double precision for all settings and in single precision with
`packflag` 0 or 1; the transform of the constant 1 is 8 at the origin. -/
example (w : Int) (st : Settings) (hst : st.Valid2 w) : ∃ f, SetUp2 w 2 (plane2 1) st f ∧
    (plane2 1).dft false (fun _ _ => 1) 0 0 = 8 ∧
    ∃ m, Holds2 2 0 (plane2 1).ins 0 (fun _ _ => 1) m ∧ Bufs2 2 f 0 m := by
  obtain ⟨f, S⟩ := setUp2_exists (plane2_valid 1 (by decide)) hst
  obtain ⟨m, h⟩ := S.mem_in fun _ _ => 1
  exact ⟨f, S, by simp [Args2.dft, dft2, plane2]; norm_num, m, h 0⟩

example : Settings.Valid2 1 ⟨2, 1, 2⟩ ∧ Settings.Valid2 2 ⟨1, 1, 1⟩ ∧ ¬ Settings.Valid2 2 ⟨2, 1, 2⟩ := by
  simp [Settings.Valid2, FlagOk2]

/-! ## C42 -/

/-- Backward after forward multiplies by the number of grid points. -/
theorem Ready2.dft_inv {c : Create2} {f : Nat → Fft2 ℝ} (R : Ready2 c f) (X : Grid2) : ∀ i j : Int,
    (0 ≤ i ∧ i < c.a.nfast) → (0 ≤ j ∧ j < c.a.nslow) →
      Ready2.effect c false (-1) (c.a.dft false X) i j = (c.a.N : ℂ) * X i j := by
  have d1 := R.args.fast; have d3 := R.args.slow
  intro i j hi hj
  have := dft2_inv (n1 := c.a.nfast.toNat) (n2 := c.a.nslow.toNat) X
    (i := i) (j := j) (by omega) (by omega)
  have e1 : ((c.a.nfast.toNat : Nat) : ℂ) = (c.a.nfast : ℂ) := by
    exact_mod_cast congrArg (Int.cast (R := ℂ)) (show ((c.a.nfast.toNat : Nat) : Int) = c.a.nfast by omega)
  have e3 : ((c.a.nslow.toNat : Nat) : ℂ) = (c.a.nslow : ℂ) := by
    exact_mod_cast congrArg (Int.cast (R := ℂ)) (show ((c.a.nslow.toNat : Nat) : Int) = c.a.nslow by omega)
  rw [e1, e3] at this
  unfold Args2.N
  push_cast
  exact this

/-- A forward and a backward `compute` on the same array. -/
theorem round_trip2 {w : Int} {P : Nat} {a : Args2} {st : Settings} {f : Nat → Fft2 ℝ} (S : SetUp2 w P a st f)
    (e : Bool) (J J' : Nat → Nat → Junk) (scaled : Bool) {n : Nat} {X : Grid2} {m : Nat → LMem ℝ}
    (hX : Holds2 P 0 a.ins n X m) (hb : Bufs2 P f n m) :
    ∃ m', Step e P (fsz2 f) n (fun r => (f r).compute (J r) scaled false 1 n n ++
        (f r).compute (J' r) scaled false (-1) n n) m m' ∧
      (if scaled then HoldsScaled2 P 0 a.ins n (fun i j => (a.N : ℂ) * X i j) (1 / a.N)
          (fun r => boxSize2 (a.outs r)) m'
      else Holds2 P 0 a.ins n (fun i j => (a.N : ℂ) * X i j) m') := by
  obtain ⟨c, rfl, rfl, rfl, rfl, _, R⟩ := S.ready
  obtain ⟨m1, s1, h1⟩ := R.compute_fwd e J scaled false (flag := 1) (Or.inl rfl) (ai := n) (ao := n)
    (Or.inl rfl) hX hb
  have h1' : Holds2 c.P c.a.permute c.a.outs n (c.a.dft false X) m1 := by simpa [Ready2.effect] using h1
  obtain ⟨m2, s2, h2⟩ := R.compute_back e J' scaled false h1' (hb.congr s1.dom)
  refine ⟨m2, s1.append s2, ?_⟩
  have inv := R.dft_inv X
  cases scaled with
  | true =>
    simp only [Bool.false_eq_true, not_false_eq_true, and_true, if_true] at h2 ⊢
    intro r hr i j hh
    obtain ⟨q1, q2⟩ := R.ins_tiles.inside r hr i j hh
    have := h2 r hr i j hh
    dsimp only at this
    rw [inv i j q1 q2] at this
    exact this
  | false =>
    simp only [Bool.false_eq_true, not_false_eq_true, and_true, if_false] at h2 ⊢
    exact h2.congr R.ins_tiles inv

/-- **C42 (without scaling).**  Forward then backward `compute` with `scaled = 0` on the same array gives
`nfast*nslow` times the original values, for all valid arguments, settings, data and schedules.  (No
condition on the buffers beyond the sizes returned by `setup`, unlike in 3d.) -/
theorem C42_round_trip_unscaled {w : Int} {P : Nat} {a : Args2} {st : Settings} {f : Nat → Fft2 ℝ}
    (S : SetUp2 w P a st f) (e : Bool) (J J' : Nat → Nat → Junk) {n : Nat} {X : Grid2} {m : Nat → LMem ℝ}
    (hX : Holds2 P 0 a.ins n X m) (hb : Bufs2 P f n m) :
    ∃ m', Terminates e P (fun r => (f r).compute (J r) false false 1 n n ++
        (f r).compute (J' r) false false (-1) n n) m m' ∧
      Holds2 P 0 a.ins n (fun i j => (a.nfast * a.nslow : ℂ) * X i j) m' ∧ Kept2 P f n m m' := by
  obtain ⟨m', s, h⟩ := round_trip2 S e J J' false hX hb
  refine ⟨m', s.ok.terminates, ?_, s.kept2⟩
  simpa [Args2.N] using h

theorem scaled_back2 {P : Nat} {a : Args2} (hv : a.Valid P) (X : Grid2) :
    (fun i j => ((1 / a.N : ℝ) : ℂ) * ((a.N : ℂ) * X i j)) = X := by
  have hN : (a.N : ℂ) ≠ 0 := by exact_mod_cast hv.N_pos.ne'
  funext i j
  push_cast
  field_simp

/-- **C42 (with scaling).**  Forward then backward `compute` with `scaled = 1` restores the original values
if no rank has more points on input than on output (then the numbers are equal on every rank).  Without this
condition it is false, see `C42_false`. -/
theorem C42_round_trip_partial {w : Int} {P : Nat} {a : Args2} {st : Settings} {f : Nat → Fft2 ℝ}
    (S : SetUp2 w P a st f) (hio : ∀ r < P, (a.ins r).count ≤ (a.outs r).count) (e : Bool)
    (J J' : Nat → Nat → Junk) {n : Nat} {X : Grid2} {m : Nat → LMem ℝ}
    (hX : Holds2 P 0 a.ins n X m) (hb : Bufs2 P f n m) :
    ∃ m', Terminates e P (fun r => (f r).compute (J r) true false 1 n n ++
        (f r).compute (J' r) true false (-1) n n) m m' ∧
      Holds2 P 0 a.ins n X m' ∧ Kept2 P f n m m' := by
  obtain ⟨m', s, h⟩ := round_trip2 S e J J' true hX hb
  refine ⟨m', s.ok.terminates, ?_, s.kept2⟩
  simp only [if_true] at h
  have h := h.all (Or.inl rfl) (by
    intro r hr
    rw [boxSize2_eq_count (S.args.properOut r hr)]
    exact hio r hr)
  rwa [scaled_back2 S.args] at h

example (w : Int) (st : Settings) (hst : st.Valid2 w) : ∃ f, SetUp2 w 2 (plane2 1) st f ∧
    (∀ r < 2, ((plane2 1).ins r).count ≤ ((plane2 1).outs r).count) ∧
    ∃ m, Holds2 2 0 (plane2 1).ins 0 (fun i j => i + 5 * j) m ∧ Bufs2 2 f 0 m := by
  obtain ⟨f, S⟩ := setUp2_exists (plane2_valid 1 (by decide)) hst
  obtain ⟨m, h⟩ := S.mem_in fun i j => i + 5 * j
  refine ⟨f, S, ?_, m, (h 0).1, (h 0).2⟩
  intro r _
  simp only [plane2, Box2.count, Box2.isize, Box2.jsize]
  simp

/-! ### The witness: rank 0 owns the whole input, rank 1 the whole output -/

/-- Rank 0 owns the input grid, rank 1 the output grid. -/
def moved2 : Args2 where
  nfast := 2
  nslow := 2
  ins r := if r = 0 then ⟨0, 1, 0, 1⟩ else ⟨0, 1, 0, -1⟩
  outs r := if r = 0 then ⟨0, 1, 0, -1⟩ else ⟨0, 1, 0, 1⟩
  permute := 0

theorem moved2_valid : moved2.Valid 2 where
  procs := by decide
  fast := by simp [moved2]
  slow := by simp [moved2]
  factors := by
    intro n hn
    simp only [moved2] at hn
    rcases hn with rfl | rfl <;> exact fiveSmooth_of_dvd (m := 2) (k := 1) rfl (by decide)
  tilesIn :=
    { inside := by
        intro r hr i j h
        simp only [moved2] at h ⊢
        split_ifs at h <;> simp only [Box2.Has] at h <;> omega
      owner := by
        intro i j hi hj
        simp only [moved2] at hi hj
        exact ⟨0, by omega, by simp only [moved2, if_true, Box2.Has]; omega⟩
      disjoint := by
        intro r hr s hs i j h1 h2
        simp only [moved2] at h1 h2
        split_ifs at h1 h2 <;> simp only [Box2.Has] at h1 h2 <;> omega }
  tilesOut :=
    { inside := by
        intro r hr i j h
        simp only [moved2] at h ⊢
        split_ifs at h <;> simp only [Box2.Has] at h <;> omega
      owner := by
        intro i j hi hj
        simp only [moved2] at hi hj
        exact ⟨1, by omega, by simp only [moved2, Box2.Has]; simp; omega⟩
      disjoint := by
        intro r hr s hs i j h1 h2
        simp only [moved2] at h1 h2
        split_ifs at h1 h2 <;> simp only [Box2.Has] at h1 h2 <;> omega }
  properIn := by
    intro r hr
    simp only [moved2]
    split_ifs <;> simp [Box2.Proper, Box2.Within, Box2.isize, Box2.jsize]
  properOut := by
    intro r hr
    simp only [moved2]
    split_ifs <;> simp [Box2.Proper, Box2.isize, Box2.jsize]
  permute := by simp [moved2]

/-- **C42 is false in general.**  Two ranks, 2 x 2 grid, rank 0 owns the whole input, rank 1 the whole
output: forward then backward with `scaled = 1` leaves 4 times the original values, because `scale_ffts`
scales as many points as the rank owns on *output* (fft2d.cpp:430). -/
theorem C42_false : ∃ (P : Nat) (a : Args2) (st : Settings) (f : Nat → Fft2 ℝ) (X : Grid2)
    (m m' : Nat → LMem ℝ), SetUp2 1 P a st f ∧ Holds2 P 0 a.ins 0 X m ∧ Bufs2 P f 0 m ∧
    Terminates false P (fun r => (f r).compute (fun _ _ => (0, 0)) true false 1 0 0 ++
        (f r).compute (fun _ _ => (0, 0)) true false (-1) 0 0) m m' ∧
    Holds2 P 0 a.ins 0 (fun i j => 4 * X i j) m' ∧ ¬ Holds2 P 0 a.ins 0 X m' := by
  obtain ⟨f, S⟩ := setUp2_exists (w := 1) moved2_valid (st := ⟨2, 0, 2⟩) (by simp [Settings.Valid2, FlagOk2])
  obtain ⟨m, h⟩ := S.mem_in fun _ _ => 1
  obtain ⟨m', s, h'⟩ := round_trip2 S false (fun _ _ _ => (0, 0)) (fun _ _ _ => (0, 0)) true (h 0).1 (h 0).2
  have h8 : Holds2 2 0 moved2.ins 0 (fun i j => 4 * (1 : ℂ)) m' := by
    intro r hr i j hh
    simp only [if_true] at h'
    have := h' r hr i j hh
    dsimp only at this
    by_cases h0 : r = 0
    · subst h0
      have hlo := (addr2_range (permute := 0) (nqty := 1) (q := 0) (Or.inl rfl) hh (by decide)).1
      have e0 : boxSize2 (moved2.outs 0) = 0 := by simp [moved2, boxSize2]
      have hneg : ¬ addr2 0 (moved2.ins 0) 1 i j 0 < boxSize2 (moved2.outs 0) := by rw [e0]; omega
      simp only [hneg, if_false] at this
      have e8 : (moved2.N : ℂ) = 4 := by
        simp only [Args2.N, moved2]
        norm_num
      rw [e8] at this
      exact this
    · exfalso
      simp only [moved2, h0, if_false, Box2.Has] at hh
      omega
  refine ⟨2, moved2, _, f, _, m, m', S, (h 0).1, (h 0).2, s.ok.terminates, h8, ?_⟩
  intro h1
  have a1 := (h1 0 (by decide) 0 0 (by simp [moved2, Box2.Has])).1
  have a8 := (h8 0 (by decide) 0 0 (by simp [moved2, Box2.Has])).1
  rw [a1] at a8
  simp at a8

end FftMpi
