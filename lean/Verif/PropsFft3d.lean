import Verif.Fft3dRoom

/-!
# Properties of `FFT3d`: layouts, transforms, sizes, scaling

`SetUp3 P a st f`: `P` ranks called `FFT3d::setup` with arguments `a` and settings `st`, and it made the
objects `f 0`, ..., `f (P-1)`.  `Holds P permute bs n X m`: array `n` of every rank `r` holds the values of
the grid function `X` on the box `bs r`, in the order selected by `permute`.  `Bufs P f n m`: the arrays and
buffers have (at least) the sizes returned by `setup`.  `Terminates e P prog m m'`: see `PropsRemap3d.lean`;
it includes that no rank ever makes an access outside of its arrays and buffers.
The specification of the transform is `dft3` (`Dft3.lean`).
-/

noncomputable section

namespace FftMpi

/-- All ranks called `setup` with valid arguments. -/
structure SetUp3 (P : Nat) (a : Args3) (st : Settings) (f : Nat → Fft3 ℝ) : Prop where
  args : a.Valid P
  settings : st.Valid
  result : ∀ r < P, fft3Setup P r a st = some (.ok (f r))

/-- Nothing but array `n` has changed, and in array `n` at most the first `fftsize` complex numbers. -/
def Kept (P : Nat) (f : Nat → Fft3 ℝ) (n : Nat) (m m' : Nat → LMem ℝ) : Prop :=
  ∀ r < P, (∀ n', n' ≠ n → (m' r).ub n' = (m r).ub n') ∧
    ∀ x, (x < 0 ∨ 2 * (f r).fftsize ≤ x) → (m' r).ub n x = (m r).ub n x

theorem Step.kept {e : Bool} {P : Nat} {f : Nat → Fft3 ℝ} {n : Nat} {prog : Nat → List (Instr ℝ)}
    {m m' : Nat → LMem ℝ} (h : Step e P (fsz f) n prog m m') : Kept P f n m m' :=
  fun r hr => ⟨fun n' hn => h.other r hr n' hn, fun x hx => h.frame r hr x hx⟩

/-- The DFT of the grid of the arguments. -/
abbrev Args3.dft (a : Args3) (backward : Bool) (X : Grid3) : Grid3 :=
  dft3 a.nfast.toNat a.nmid.toNat a.nslow.toNat backward X

/-- Number of grid points. -/
def Args3.N (a : Args3) : ℝ := a.nfast * a.nmid * a.nslow

theorem Args3.Valid.N_pos {P : Nat} {a : Args3} (h : a.Valid P) : 0 < a.N := by
  have h1 := h.fast.1; have h2 := h.mid.1; have h3 := h.slow.1
  have e1 : (2 : ℝ) ≤ a.nfast := by exact_mod_cast h1
  have e2 : (2 : ℝ) ≤ a.nmid := by exact_mod_cast h2
  have e3 : (2 : ℝ) ≤ a.nslow := by exact_mod_cast h3
  unfold Args3.N
  positivity

theorem SetUp3.ready {P : Nat} {a : Args3} {st : Settings} {f : Nat → Fft3 ℝ} (S : SetUp3 P a st f) :
    ∃ c : Create, c.P = P ∧ c.a = a ∧ c.st = st ∧ setupGrids P a st.exchange = some c.g ∧ Ready c f :=
  fft3Setup_ready S.args S.settings S.result

/-! ## A running example: 2 ranks, 2 x 2 x 4 grid, slabs in `k` to slabs in `i` -/

/-- Example arguments. -/
def demo3 (permute : Int) : Args3 where
  nfast := 2
  nmid := 2
  nslow := 4
  ins r := ⟨0, 1, 0, 1, 2 * r, 2 * r + 1⟩
  outs r := ⟨r, r, 0, 1, 0, 3⟩
  permute := permute

/-- Numbers that divide a power of 30. -/
theorem fiveSmooth_of_dvd {n : Int} {m k : Nat} (e : n = m) (hm : m ∣ 30 ^ k) :
    ∀ p : Nat, p.Prime → (p : Int) ∣ n → p = 2 ∨ p = 3 ∨ p = 5 := by
  intro p hp hd
  subst e
  have h1 : p ∣ 30 := hp.dvd_of_dvd_pow ((Int.natCast_dvd_natCast.mp hd).trans hm)
  have h2 : p ≤ 30 := Nat.le_of_dvd (by decide) h1
  have h3 : 2 ≤ p := hp.two_le
  interval_cases p <;> revert h1 hp <;> norm_num

theorem demo3_valid (p : Int) (hp : p = 0 ∨ p = 1 ∨ p = 2) : (demo3 p).Valid 2 where
  procs := by decide
  fast := by simp [demo3]
  mid := by simp [demo3]
  slow := by simp [demo3]
  factors := by
    intro n hn
    simp only [demo3] at hn
    rcases hn with rfl | rfl | rfl
    · exact fiveSmooth_of_dvd (m := 2) (k := 1) rfl (by decide)
    · exact fiveSmooth_of_dvd (m := 2) (k := 1) rfl (by decide)
    · exact fiveSmooth_of_dvd (m := 4) (k := 2) rfl (by decide)
  tilesIn :=
    { inside := by intro r hr i j k h; simp only [demo3, Box3.Has] at h ⊢; omega
      owner := by
        intro i j k hi hj hk
        simp only [demo3] at hi hj hk
        exact ⟨(k / 2).toNat, by omega, by simp only [demo3, Box3.Has]; omega⟩
      disjoint := by intro r hr s hs i j k h1 h2; simp only [demo3, Box3.Has] at h1 h2; omega }
  tilesOut :=
    { inside := by intro r hr i j k h; simp only [demo3, Box3.Has] at h ⊢; omega
      owner := by
        intro i j k hi hj hk
        simp only [demo3] at hi hj hk
        exact ⟨i.toNat, by omega, by simp only [demo3, Box3.Has]; omega⟩
      disjoint := by intro r hr s hs i j k h1 h2; simp only [demo3, Box3.Has] at h1 h2; omega }
  properIn := by
    intro r hr
    simp only [demo3, Box3.Proper, Box3.Within, Box3.isize, Box3.jsize, Box3.ksize]
    omega
  properOut := by
    intro r hr
    simp only [demo3, Box3.Proper, Box3.isize, Box3.jsize, Box3.ksize]
    omega
  permute := hp

/-- `setup` succeeds for all valid arguments. -/
theorem setUp3_exists {P : Nat} {a : Args3} {st : Settings} (hv : a.Valid P) (hst : st.Valid) :
    ∃ f, SetUp3 P a st f := by
  obtain ⟨f, hf⟩ := fft3Setup_exists hv hst
  exact ⟨f, hv, hst, hf⟩

/-- Memory in which every array holds `X` in the layout `bs`; the buffers have the sizes `ss`, `rs`. -/
def memOf (f : Nat → Fft3 ℝ) (p : Int) (bs : Nat → Box3) (X : Grid3) (ss rs : Nat → Int) (r : Nat) :
    LMem ℝ where
  ub _ := arrayOf p (bs r) X (f r).fftsize
  sb x := if 0 ≤ x ∧ x < ss r then some 0 else none
  rb x := if 0 ≤ x ∧ x < rs r then some 0 else none

theorem memOf_bufs {P : Nat} {f : Nat → Fft3 ℝ} {p : Int} {bs : Nat → Box3} {X : Grid3} {ss rs : Nat → Int}
    (n : Nat) (h1 : ∀ r < P, (f r).sendsize ≤ ss r) (h2 : ∀ r < P, (f r).recvsize ≤ rs r) :
    Bufs P f n (memOf f p bs X ss rs) where
  data _ _ := arrayOf_accessible _ _ _ _
  sb r hr := by
    intro x hx0 hx1
    have := h1 r hr
    simp only [memOf]
    rw [if_pos (by omega)]; rfl
  rb r hr := by
    intro x hx0 hx1
    have := h2 r hr
    simp only [memOf]
    rw [if_pos (by omega)]; rfl

/-- Memory of exactly the sizes returned by `setup` in which every array holds `X` in the input layout. -/
theorem SetUp3.mem_in {P : Nat} {a : Args3} {st : Settings} {f : Nat → Fft3 ℝ} (S : SetUp3 P a st f)
    (X : Grid3) : ∃ m, ∀ n, Holds P 0 a.ins n X m ∧ Bufs P f n m := by
  obtain ⟨c, rfl, rfl, rfl, _, R⟩ := S.ready
  refine ⟨memOf f 0 c.a.ins X (fun r => (f r).sendsize) (fun r => (f r).recvsize), fun n => ⟨?_, ?_⟩⟩
  · intro r hr
    exact arrayOf_holds (R.size_ins hr)
  · exact memOf_bufs n (fun _ _ => le_rfl) (fun _ _ => le_rfl)

/-- The same for the output layout. -/
theorem SetUp3.mem_out {P : Nat} {a : Args3} {st : Settings} {f : Nat → Fft3 ℝ} (S : SetUp3 P a st f)
    (X : Grid3) : ∃ m, ∀ n, Holds P a.permute a.outs n X m ∧ Bufs P f n m := by
  obtain ⟨c, rfl, rfl, rfl, _, R⟩ := S.ready
  refine ⟨memOf f c.a.permute c.a.outs X (fun r => (f r).sendsize) (fun r => (f r).recvsize),
    fun n => ⟨?_, ?_⟩⟩
  · intro r hr
    exact arrayOf_holds (R.size_outs hr)
  · exact memOf_bufs n (fun _ _ => le_rfl) (fun _ _ => le_rfl)

/-! ## C17 -/

/-- Two boxes have about the same extent in every dimension. -/
def Box3.Close (b b' : Box3) : Prop :=
  |b.isize - b'.isize| ≤ 1 ∧ |b.jsize - b'.jsize| ≤ 1 ∧ |b.ksize - b'.ksize| ≤ 1

theorem gridBox_close {np : Nat × Nat × Nat} {P : Nat} (h : np.1 * np.2.1 * np.2.2 = P) (hP : 0 < P)
    (n1 n2 n3 r s : Nat) : (gridBox np n1 n2 n3 r).Close (gridBox np n1 n2 n3 s) := by
  have p1 : 0 < np.1 := Nat.pos_of_ne_zero (by rintro h0; rw [h0] at h; simp at h; omega)
  have p2 : 0 < np.2.1 := Nat.pos_of_ne_zero (by rintro h0; rw [h0] at h; simp at h; omega)
  have p3 : 0 < np.2.2 := Nat.pos_of_ne_zero (by rintro h0; rw [h0] at h; simp at h; omega)
  unfold Box3.Close Box3.isize Box3.jsize Box3.ksize gridBox
  simp only
  have a1 := block_size (n := n1) (a := (gridCoords np r).1) p1
  have a2 := block_size (n := n1) (a := (gridCoords np s).1) p1
  have b1 := block_size (n := n2) (a := (gridCoords np r).2.1) p2
  have b2 := block_size (n := n2) (a := (gridCoords np s).2.1) p2
  have c1 := block_size (n := n3) (a := (gridCoords np r).2.2) p3
  have c2 := block_size (n := n3) (a := (gridCoords np s).2.2) p3
  refine ⟨abs_le.mpr ⟨?_, ?_⟩, abs_le.mpr ⟨?_, ?_⟩, abs_le.mpr ⟨?_, ?_⟩⟩ <;> omega

/-- **C17.**  For all valid arguments and all numbers of ranks: the fast, mid, slow and brick layouts tile
the grid, the pencils span their whole dimension, and any two ranks' extents differ by at most one point in
each dimension - except that the fast (slow) layout is the user's input (output) layout if all its boxes are
already pencils in the right dimension. -/
theorem C17_layouts_tile {P : Nat} {a : Args3} (hv : a.Valid P) {exchange : Int} {g : Grids}
    (hg : setupGrids P a exchange = some g) :
    (Tiles3 P (fastBox P a g) a.nfast a.nmid a.nslow ∧
      (∀ r < P, (fastBox P a g r).ilo = 0 ∧ (fastBox P a g r).ihi = a.nfast - 1) ∧
      ((∀ r < P, fastBox P a g r = a.ins r) ∨
        ∀ r < P, ∀ s < P, (fastBox P a g r).Close (fastBox P a g s))) ∧
    (Tiles3 P (midBox a g) a.nfast a.nmid a.nslow ∧
      (∀ r < P, (midBox a g r).jlo = 0 ∧ (midBox a g r).jhi = a.nmid - 1) ∧
      ∀ r < P, ∀ s < P, (midBox a g r).Close (midBox a g s)) ∧
    (Tiles3 P (slowBox P a g) a.nfast a.nmid a.nslow ∧
      (∀ r < P, (slowBox P a g r).klo = 0 ∧ (slowBox P a g r).khi = a.nslow - 1) ∧
      ((∀ r < P, slowBox P a g r = a.outs r) ∨
        ∀ r < P, ∀ s < P, (slowBox P a g r).Close (slowBox P a g s))) ∧
    (exchange ≠ 0 → Tiles3 P (brickBox a g) a.nfast a.nmid a.nslow ∧
      ∀ r < P, ∀ s < P, (brickBox a g r).Close (brickBox a g s)) := by
  obtain ⟨g', hg', hgo⟩ := setupGrids_ok hv.round hv.procs hv.fast hv.mid hv.slow exchange
  rw [hg] at hg'
  obtain rfl := Option.some.inj hg'
  have h1 := hv.fast; have h2 := hv.mid; have h3 := hv.slow
  refine ⟨⟨fastBox_tiles hv hgo, fun r hr => fastBox_full hr, ?_⟩, ⟨midBox_tiles hv hgo,
    fun r _ => midBox_full r, ?_⟩, ⟨slowBox_tiles hv hgo, fun r hr => slowBox_full hr, ?_⟩,
    fun hx => ⟨brickBox_tiles hv hgo hx, ?_⟩⟩
  · by_cases hp : preflag P a = true
    · right
      intro r _ s _
      rw [fastBox_eq (by omega) hgo hp, fastBox_eq (by omega) hgo hp]
      exact gridBox_close hgo.fast hv.procs _ _ _ _ _
    · left
      intro r _
      simp [fastBox, hp]
  · intro r _ s _
    rw [midBox_eq (by omega) hgo, midBox_eq (by omega) hgo]
    exact gridBox_close hgo.mid hv.procs _ _ _ _ _
  · by_cases hp : slowflag P a = true
    · right
      intro r hr s hs
      rw [slowBox_eq hv.procs (by omega) hgo hp hr, slowBox_eq hv.procs (by omega) hgo hp hs]
      exact gridBox_close hgo.slow hv.procs _ _ _ _ _
    · left
      intro r _
      simp [slowBox, hp]
  · intro r _ s _
    exact gridBox_close (hgo.brick hx) hv.procs _ _ _ _ _

example : ∃ g, setupGrids 2 (demo3 1) 1 = some g ∧ Tiles3 2 (brickBox (demo3 1) g) 2 2 4 := by
  have hv := demo3_valid 1 (by decide)
  obtain ⟨g, hg, _⟩ := setupGrids_ok hv.round hv.procs hv.fast hv.mid hv.slow 1
  exact ⟨g, hg, ((C17_layouts_tile hv hg).2.2.2 (by decide)).1⟩

/-! ## C21 -/

/-- **C21.**  For all valid arguments, all settings, all data, all schedules: after `compute(data,data,1)`
on all ranks, each rank's array holds the 3d DFT of the global input on its output box, in the order selected
by `permute`.  Nothing else has changed. -/
theorem C21_forward_dft {P : Nat} {a : Args3} {st : Settings} {f : Nat → Fft3 ℝ} (S : SetUp3 P a st f)
    (e : Bool) (J : Nat → Nat → Junk) (scaled : Bool) {n : Nat} {X : Grid3} {m : Nat → LMem ℝ}
    (hX : Holds P 0 a.ins n X m) (hb : Bufs P f n m) :
    ∃ m', Terminates e P (fun r => (f r).compute (J r) scaled false 1 n n) m m' ∧
      Holds P a.permute a.outs n (a.dft false X) m' ∧ Kept P f n m m' := by
  obtain ⟨c, rfl, rfl, rfl, _, R⟩ := S.ready
  obtain ⟨m', s, h⟩ := R.compute_fwd e J scaled false (flag := 1) (Or.inl rfl) (ai := n) (ao := n)
    (Or.inl rfl) hX hb
  exact ⟨m', s.ok.terminates, by simpa [Ready.effect] using h, s.kept⟩

/-- Example: the transform of the constant 1 has the value 16 at the origin and 0 elsewhere, for every
combination of settings. -/
example (st : Settings) (hst : st.Valid) : ∃ f, SetUp3 2 (demo3 1) st f ∧
    ∃ m, Holds 2 0 (demo3 1).ins 0 (fun _ _ _ => 1) m ∧ Bufs 2 f 0 m := by
  obtain ⟨f, S⟩ := setUp3_exists (demo3_valid 1 (by decide)) hst
  obtain ⟨m, h⟩ := S.mem_in fun _ _ _ => 1
  exact ⟨f, S, m, h 0⟩

/-! ## Buffers for the backward transform -/

/-- The buffers are large enough for a backward transform: without the brick stage or if input and output
layout are the same the sizes returned by `setup` are enough, otherwise there must also be room for the remap whose
sizes `setup` leaves out (see C25; by `C25_room_iff` the condition is necessary). -/
def RoomBack (P : Nat) (a : Args3) (st : Settings) (m : Nat → LMem ℝ) : Prop :=
  st.exchange = 0 ∨ (a.permute = 0 ∧ ∀ r < P, a.ins r = a.outs r) ∨
    ∃ g, setupGrids P a st.exchange = some g ∧ ∀ r < P, ExtraRoom P a st g m r

theorem RoomBack.congr {P : Nat} {a : Args3} {st : Settings} {m m' : Nat → LMem ℝ}
    (h : RoomBack P a st m) (hd : SameDom P m m') : RoomBack P a st m' := by
  rcases h with h | h | ⟨g, hg, h⟩
  · exact Or.inl h
  · exact Or.inr (Or.inl h)
  · refine Or.inr (Or.inr ⟨g, hg, fun r hr => ?_⟩)
    obtain ⟨h1, h2, h3⟩ := h r hr
    exact ⟨accessible_congr (hd r hr).2.2 h1, fun hc => accessible_congr (hd r hr).2.1 (h2 hc),
      fun hc p hp hne => accessible_congr (hd r hr).2.1 (h3 hc p hp hne)⟩

theorem inoutSame_of {P : Nat} {a : Args3} (h0 : a.permute = 0) (h : ∀ r < P, a.ins r = a.outs r) :
    inoutSame P a = true := by
  unfold inoutSame
  rw [Bool.not_eq_true', allMax_false]
  intro r hr
  simp [h r hr, h0]

theorem Fft3.enlarge_compute (f : Fft3 ℝ) (J : Nat → Junk) (scaled remaponly : Bool) (flag : Int)
    (ai ao : Nat) : f.enlarge.compute J scaled remaponly flag ai ao = f.compute J scaled remaponly flag ai ao :=
  rfl

theorem Bufs.enlarge {P : Nat} {f : Nat → Fft3 ℝ} {n : Nat} {m : Nat → LMem ℝ} (hb : Bufs P f n m)
    (h : ∀ r < P, accessible (m r).sb 0 (2 * (f r).fftsize) ∧ accessible (m r).rb 0 (2 * (f r).fftsize)) :
    Bufs P (fun r => (f r).enlarge) n m where
  data := hb.data
  sb r hr := by
    intro x h0 h1
    rcases lt_max_iff.mp (show x < max (f r).sendsize (2 * (f r).fftsize) by simpa [Fft3.enlarge] using h1) with g | g
    · exact hb.sb r hr x h0 (by omega)
    · exact (h r hr).1 x h0 (by omega)
  rb r hr := by
    intro x h0 h1
    rcases lt_max_iff.mp (show x < max (f r).recvsize (2 * (f r).fftsize) by simpa [Fft3.enlarge] using h1) with g | g
    · exact hb.rb r hr x h0 (by omega)
    · exact (h r hr).2 x h0 (by omega)

/-- Buffers of `2*fftsize` are large enough. -/
theorem SetUp3.room {P : Nat} {a : Args3} {st : Settings} {f : Nat → Fft3 ℝ} (S : SetUp3 P a st f) {m : Nat → LMem ℝ}
    (h : ∀ r < P, accessible (m r).sb 0 (2 * (f r).fftsize) ∧ accessible (m r).rb 0 (2 * (f r).fftsize)) :
    RoomBack P a st m := by
  obtain ⟨c, rfl, rfl, rfl, hg, R⟩ := S.ready
  by_cases hx : c.st.exchange = 0
  · exact Or.inl hx
  · refine Or.inr (Or.inr ⟨c.g, hg, fun r hr => (R.extraRoom hx hr).mpr ?_⟩)
    obtain ⟨h1, h2⟩ := R.midfastR2_sizes hx hr
    have h3 := R.size_brick hx hr
    have h4 := R.size_fast hr
    exact ⟨accessible_mono (h r hr).1 (by omega), accessible_mono (h r hr).2 (by omega)⟩

/-- With such buffers the object works like one that has counted the remap. -/
theorem Ready.roomFits {c : Create} {f : Nat → Fft3 ℝ} (R : Ready c f) {m : Nat → LMem ℝ} (hr : RoomBack c.P c.a c.st m)
    (hs : inoutSame c.P c.a = false) :
    ∃ s t : Nat → Int, Ready.ExtraFits c (fun r => (f r).atLeast (s r) (t r)) ∧
      ∀ n, Bufs c.P f n m → Bufs c.P (fun r => (f r).atLeast (s r) (t r)) n m := by
  have hmax : ∀ {m : Mem ℝ} {x y : Int}, accessible m 0 x → accessible m 0 y → accessible m 0 (max x y) := by
    intro m x y hx hy
    rcases max_choice x y with h | h <;> rw [h] <;> assumption
  by_cases h0 : c.st.exchange = 0
  · exact ⟨fun _ => 0, fun _ => 0, fun h => absurd h0 h, fun n hb => ⟨hb.data,
      fun r hr => hmax (hb.sb r hr) (by intro x h0 h1; dsimp only at h1; omega), fun r hr => hmax (hb.rb r hr) (by intro x h0 h1; dsimp only at h1; omega)⟩⟩
  rcases hr with h | ⟨hp, h⟩ | ⟨g, hg, h⟩
  · exact absurd h h0
  · rw [inoutSame_of hp h] at hs; cases hs
  · rw [R.made] at hg
    obtain rfl := Option.some.inj hg
    exact ⟨fun r => ((c.on r).midfastR2 (α := ℝ)).obj.sendsize, fun r => ((c.on r).midfastR2 (α := ℝ)).obj.recvsize,
      fun _ r _ => ⟨le_max_right _ _, le_max_right _ _⟩, fun n hb => ⟨hb.data,
        fun r hr => hmax (hb.sb r hr) ((R.extraRoom h0 hr).mp (h r hr)).1,
        fun r hr => hmax (hb.rb r hr) ((R.extraRoom h0 hr).mp (h r hr)).2⟩⟩

/-- Backward `compute` in place. -/
theorem Ready.back {c : Create} {f : Nat → Fft3 ℝ} (R : Ready c f) (e : Bool) (J : Nat → Nat → Junk)
    (scaled remaponly : Bool) {n : Nat} {X : Grid3} {m : Nat → LMem ℝ}
    (hX : Holds c.P c.a.permute c.a.outs n X m) (hb : Bufs c.P f n m) (hr : RoomBack c.P c.a c.st m) :
    ∃ m', Step e c.P (fsz f) n (fun r => (f r).compute (J r) scaled remaponly (-1) n n) m m' ∧
      (if scaled ∧ ¬ remaponly then
        HoldsScaled c.P 0 c.a.ins n (Ready.effect c remaponly (-1) X) (1 / c.a.N)
          (fun r => boxSize (c.a.outs r)) m'
      else Holds c.P 0 c.a.ins n (Ready.effect c remaponly (-1) X) m') := by
  cases hs : inoutSame c.P c.a with
  | true => exact R.compute_back e (fun h => by rw [hs] at h; cases h) J scaled remaponly hX hb
  | false =>
    obtain ⟨s, t, hx, hB⟩ := R.roomFits hr hs
    obtain ⟨m', s, g⟩ := (R.atLeast s t).compute_back e (fun _ => hx) J scaled remaponly hX (hB n hb)
    exact ⟨m', s, g⟩

/-! ## C22 -/

/-- Backward after forward multiplies by the number of grid points. -/
theorem Ready.dft_inv {c : Create} {f : Nat → Fft3 ℝ} (R : Ready c f) (X : Grid3) : ∀ i j k : Int,
    (0 ≤ i ∧ i < c.a.nfast) → (0 ≤ j ∧ j < c.a.nmid) → (0 ≤ k ∧ k < c.a.nslow) →
      Ready.effect c false (-1) (c.a.dft false X) i j k = (c.a.N : ℂ) * X i j k := by
  have d1 := R.args.fast; have d2 := R.args.mid; have d3 := R.args.slow
  intro i j k hi hj hk
  have := dft3_inv (n1 := c.a.nfast.toNat) (n2 := c.a.nmid.toNat) (n3 := c.a.nslow.toNat) X
    (i := i) (j := j) (k := k) (by omega) (by omega) (by omega)
  have e1 : ((c.a.nfast.toNat : Nat) : ℂ) = (c.a.nfast : ℂ) := by
    exact_mod_cast congrArg (Int.cast (R := ℂ)) (show ((c.a.nfast.toNat : Nat) : Int) = c.a.nfast by omega)
  have e2 : ((c.a.nmid.toNat : Nat) : ℂ) = (c.a.nmid : ℂ) := by
    exact_mod_cast congrArg (Int.cast (R := ℂ)) (show ((c.a.nmid.toNat : Nat) : Int) = c.a.nmid by omega)
  have e3 : ((c.a.nslow.toNat : Nat) : ℂ) = (c.a.nslow : ℂ) := by
    exact_mod_cast congrArg (Int.cast (R := ℂ)) (show ((c.a.nslow.toNat : Nat) : Int) = c.a.nslow by omega)
  rw [e1, e2, e3] at this
  unfold Args3.N
  push_cast
  exact this

/-- A forward and a backward `compute` on the same array. -/
theorem round_trip {P : Nat} {a : Args3} {st : Settings} {f : Nat → Fft3 ℝ} (S : SetUp3 P a st f)
    (e : Bool) (J J' : Nat → Nat → Junk) (scaled : Bool) {n : Nat} {X : Grid3} {m : Nat → LMem ℝ}
    (hX : Holds P 0 a.ins n X m) (hb : Bufs P f n m) (hr : RoomBack P a st m) :
    ∃ m', Step e P (fsz f) n (fun r => (f r).compute (J r) scaled false 1 n n ++
        (f r).compute (J' r) scaled false (-1) n n) m m' ∧
      (if scaled then HoldsScaled P 0 a.ins n (fun i j k => (a.N : ℂ) * X i j k) (1 / a.N)
          (fun r => boxSize (a.outs r)) m'
      else Holds P 0 a.ins n (fun i j k => (a.N : ℂ) * X i j k) m') := by
  obtain ⟨c, rfl, rfl, rfl, _, R⟩ := S.ready
  obtain ⟨m1, s1, h1⟩ := R.compute_fwd e J scaled false (flag := 1) (Or.inl rfl) (ai := n) (ao := n)
    (Or.inl rfl) hX hb
  have h1' : Holds c.P c.a.permute c.a.outs n (c.a.dft false X) m1 := by simpa [Ready.effect] using h1
  obtain ⟨m2, s2, h2⟩ := R.back e J' scaled false h1' (hb.congr s1.dom) (hr.congr s1.dom)
  refine ⟨m2, s1.append s2, ?_⟩
  have inv := R.dft_inv X
  cases scaled with
  | true =>
    simp only [Bool.false_eq_true, not_false_eq_true, and_true, if_true] at h2 ⊢
    intro r hr i j k hh
    obtain ⟨q1, q2, q3⟩ := R.ins_tiles.inside r hr i j k hh
    have := h2 r hr i j k hh
    dsimp only at this
    rw [inv i j k q1 q2 q3] at this
    exact this
  | false =>
    simp only [Bool.false_eq_true, not_false_eq_true, and_true, if_false] at h2 ⊢
    exact h2.congr R.ins_tiles inv

/-- **C22 (without scaling).**  Forward then backward `compute` with `scaled = 0` on the same array gives
`nfast*nmid*nslow` times the original values, for all valid arguments, settings, data and schedules.
Missing with respect to C22: if `exchange` is set and input and output layout differ, the buffers must also have
room for the remap whose sizes `setup` leaves out (`RoomBack`); with the sizes returned by `setup` the statement is
false, see `C25_false`. -/
theorem C22_round_trip_unscaled_partial {P : Nat} {a : Args3} {st : Settings} {f : Nat → Fft3 ℝ}
    (S : SetUp3 P a st f) (e : Bool) (J J' : Nat → Nat → Junk) {n : Nat} {X : Grid3} {m : Nat → LMem ℝ}
    (hX : Holds P 0 a.ins n X m) (hb : Bufs P f n m) (hr : RoomBack P a st m) :
    ∃ m', Terminates e P (fun r => (f r).compute (J r) false false 1 n n ++
        (f r).compute (J' r) false false (-1) n n) m m' ∧
      Holds P 0 a.ins n (fun i j k => (a.nfast * a.nmid * a.nslow : ℂ) * X i j k) m' ∧ Kept P f n m m' := by
  obtain ⟨m', s, h⟩ := round_trip S e J J' false hX hb hr
  refine ⟨m', s.ok.terminates, ?_, s.kept⟩
  simpa [Args3.N] using h

/-- **C22 (with scaling).**  Forward then backward `compute` with `scaled = 1` restores the original values
if no rank has more points on input than on output (then the numbers are equal on every rank).  Without this
condition it is false, see `C22_false`. -/
theorem C22_round_trip_partial {P : Nat} {a : Args3} {st : Settings} {f : Nat → Fft3 ℝ}
    (S : SetUp3 P a st f) (hio : ∀ r < P, (a.ins r).count ≤ (a.outs r).count) (e : Bool)
    (J J' : Nat → Nat → Junk) {n : Nat} {X : Grid3} {m : Nat → LMem ℝ}
    (hX : Holds P 0 a.ins n X m) (hb : Bufs P f n m) (hr : RoomBack P a st m) :
    ∃ m', Terminates e P (fun r => (f r).compute (J r) true false 1 n n ++
        (f r).compute (J' r) true false (-1) n n) m m' ∧
      Holds P 0 a.ins n X m' ∧ Kept P f n m m' := by
  obtain ⟨m', s, h⟩ := round_trip S e J J' true hX hb hr
  refine ⟨m', s.ok.terminates, ?_, s.kept⟩
  simp only [if_true] at h
  have h := h.all (by
    intro r hr
    rw [boxSize_eq_count (S.args.properOut r hr)]
    exact hio r hr)
  have hN : (a.N : ℂ) ≠ 0 := by exact_mod_cast S.args.N_pos.ne'
  have e0 : (fun i j k => ((1 / a.N : ℝ) : ℂ) * ((a.N : ℂ) * X i j k)) = X := by
    funext i j k
    push_cast
    field_simp
  rwa [e0] at h

example (st : Settings) (hst : st.Valid) (h0 : st.exchange = 0) : ∃ f, SetUp3 2 (demo3 1) st f ∧
    (∀ r < 2, ((demo3 1).ins r).count ≤ ((demo3 1).outs r).count) ∧
    ∃ m, Holds 2 0 (demo3 1).ins 0 (fun i _ k => i + 5 * k) m ∧ Bufs 2 f 0 m ∧ RoomBack 2 (demo3 1) st m := by
  obtain ⟨f, S⟩ := setUp3_exists (demo3_valid 1 (by decide)) hst
  obtain ⟨m, h⟩ := S.mem_in fun i _ k => i + 5 * k
  refine ⟨f, S, ?_, m, (h 0).1, (h 0).2, Or.inl h0⟩
  intro r _
  simp only [demo3, Box3.count, Box3.isize, Box3.jsize, Box3.ksize]
  simp

/-! ### The witness: rank 0 owns the whole input, rank 1 the whole output -/

/-- Rank 0 owns the input grid, rank 1 the output grid. -/
def moved : Args3 where
  nfast := 2
  nmid := 2
  nslow := 2
  ins r := if r = 0 then ⟨0, 1, 0, 1, 0, 1⟩ else ⟨0, 1, 0, 1, 0, -1⟩
  outs r := if r = 0 then ⟨0, 1, 0, 1, 0, -1⟩ else ⟨0, 1, 0, 1, 0, 1⟩
  permute := 0

theorem moved_valid : moved.Valid 2 where
  procs := by decide
  fast := by simp [moved]
  mid := by simp [moved]
  slow := by simp [moved]
  factors := by
    intro n hn
    simp only [moved] at hn
    rcases hn with rfl | rfl | rfl <;> exact fiveSmooth_of_dvd (m := 2) (k := 1) rfl (by decide)
  tilesIn :=
    { inside := by
        intro r hr i j k h
        simp only [moved] at h ⊢
        split_ifs at h <;> simp only [Box3.Has] at h <;> omega
      owner := by
        intro i j k hi hj hk
        simp only [moved] at hi hj hk
        exact ⟨0, by omega, by simp only [moved, if_true, Box3.Has]; omega⟩
      disjoint := by
        intro r hr s hs i j k h1 h2
        simp only [moved] at h1 h2
        split_ifs at h1 h2 <;> simp only [Box3.Has] at h1 h2 <;> omega }
  tilesOut :=
    { inside := by
        intro r hr i j k h
        simp only [moved] at h ⊢
        split_ifs at h <;> simp only [Box3.Has] at h <;> omega
      owner := by
        intro i j k hi hj hk
        simp only [moved] at hi hj hk
        exact ⟨1, by omega, by simp only [moved, Box3.Has]; simp; omega⟩
      disjoint := by
        intro r hr s hs i j k h1 h2
        simp only [moved] at h1 h2
        split_ifs at h1 h2 <;> simp only [Box3.Has] at h1 h2 <;> omega }
  properIn := by
    intro r hr
    simp only [moved]
    split_ifs <;> simp [Box3.Proper, Box3.Within, Box3.isize, Box3.jsize, Box3.ksize]
  properOut := by
    intro r hr
    simp only [moved]
    split_ifs <;> simp [Box3.Proper, Box3.isize, Box3.jsize, Box3.ksize]
  permute := by simp [moved]

/-- **C22 is false in general.**  Two ranks, 2 x 2 x 2 grid, rank 0 owns the whole input, rank 1 the whole
output: forward then backward with `scaled = 1` leaves 8 times the original values, because `scale_ffts`
scales as many points as the rank owns on *output* (fft3d.cpp:462). -/
theorem C22_false : ∃ (P : Nat) (a : Args3) (st : Settings) (f : Nat → Fft3 ℝ) (X : Grid3)
    (m m' : Nat → LMem ℝ), SetUp3 P a st f ∧ Holds P 0 a.ins 0 X m ∧ Bufs P f 0 m ∧ RoomBack P a st m ∧
    Terminates false P (fun r => (f r).compute (fun _ _ => (0, 0)) true false 1 0 0 ++
        (f r).compute (fun _ _ => (0, 0)) true false (-1) 0 0) m m' ∧
    Holds P 0 a.ins 0 (fun i j k => 8 * X i j k) m' ∧ ¬ Holds P 0 a.ins 0 X m' := by
  obtain ⟨f, S⟩ := setUp3_exists moved_valid (st := ⟨2, 0, 2⟩) (by simp [Settings.Valid])
  obtain ⟨m, h⟩ := S.mem_in fun _ _ _ => 1
  obtain ⟨m', s, h'⟩ := round_trip S false (fun _ _ _ => (0, 0)) (fun _ _ _ => (0, 0)) true (h 0).1 (h 0).2
    (Or.inl rfl)
  have h8 : Holds 2 0 moved.ins 0 (fun i j k => 8 * (1 : ℂ)) m' := by
    intro r hr i j k hh
    simp only [if_true] at h'
    have := h' r hr i j k hh
    dsimp only at this
    by_cases h0 : r = 0
    · subst h0
      have hlo := (addr3_range (permute := 0) (nqty := 1) (q := 0) hh (by decide)).1
      have e0 : boxSize (moved.outs 0) = 0 := by simp [moved, boxSize]
      have hneg : ¬ addr3 0 (moved.ins 0) 1 i j k 0 < boxSize (moved.outs 0) := by rw [e0]; omega
      simp only [hneg, if_false] at this
      have e8 : (moved.N : ℂ) = 8 := by
        simp only [Args3.N, moved]
        norm_num
      rw [e8] at this
      exact this
    · exfalso
      simp only [moved, h0, if_false, Box3.Has] at hh
      omega
  refine ⟨2, moved, _, f, _, m, m', S, (h 0).1, (h 0).2, Or.inl rfl, s.ok.terminates, h8, ?_⟩
  intro h1
  have a1 := (h1 0 (by decide) 0 0 0 (by simp [moved, Box3.Has])).1
  have a8 := (h8 0 (by decide) 0 0 0 (by simp [moved, Box3.Has])).1
  rw [a1] at a8
  simp at a8

end FftMpi
