import Verif.PropsFft3dUse
import Verif.PropsFft2dUse

/-!
# C22, C27, C42: exactly when a scaled transform is right

`scale_ffts` multiplies as many complex numbers as the rank owns on *output* (fft3d.cpp:462, fft2d.cpp:431), after a backward
transform the array holds the values of the *input* box.  The theorems say for which data and for which layouts that matters.
-/

namespace FftMpi

/-- All schedules of a program have the same result. -/
theorem Terminates.agree {α : Type} {e : Bool} {P : Nat} {prog : Nat → List (Instr α)} {m m1 m2 : Nat → LMem α}
    (h1 : Terminates e P prog m m1) (h2 : Terminates e P prog m m2) : ∀ r < P, m2 r = m1 r := by
  obtain ⟨n, hn⟩ := h1.bounded
  obtain ⟨_, hr⟩ := hn 0 _ (.refl _)
  have h := h2.stuck _ _ hr fun r ch => (finalCfg_final P m m1).no_step r ch
  intro r hr
  have h := congrFun (congrArg Config.rank h) r
  simp only [finalCfg, hr, if_true] at h
  injection h with _ h _ _
  exact h.symm

/-! ## 3d -/

/-- One array has the values of two grids: they agree on the box. -/
theorem HoldsBox.agree {p : Int} {b : Box3} {X Y : Grid3} {u : Mem ℝ} (h : HoldsBox p b X u) (h' : HoldsBox p b Y u)
    {i j k : Int} (hh : b.Has i j k) : X i j k = Y i j k := by
  obtain ⟨h1, h2⟩ := h i j k hh
  obtain ⟨h3, h4⟩ := h' i j k hh
  rw [h1] at h3
  rw [h2] at h4
  exact Complex.ext (Option.some.inj h3) (Option.some.inj h4)

/-- The points of the input box of rank `r` that a scaled backward transform leaves as they are: those stored behind as many
complex numbers as the rank has points on output. -/
def Args3.Beyond (a : Args3) (r : Nat) (i j k : Int) : Prop :=
  (a.ins r).Has i j k ∧
    (a.outs r).count ≤ ((k - (a.ins r).klo) * (a.ins r).jsize + (j - (a.ins r).jlo)) * (a.ins r).isize + (i - (a.ins r).ilo)

theorem Args3.beyond_iff {a : Args3} {r : Nat} {i j k : Int} (h : (a.ins r).Has i j k) :
    a.Beyond r i j k ↔ ¬ addr3 0 (a.ins r) 1 i j k 0 < (a.outs r).count := by
  unfold Args3.Beyond addr3
  rw [if_pos rfl]
  constructor
  · rintro ⟨_, h'⟩
    omega
  · intro h'
    exact ⟨h, by omega⟩

/-- There are such points if and only if the rank has more points on input than on output. -/
theorem Args3.exists_beyond {a : Args3} {P : Nat} (hv : a.Valid P) {r : Nat} (hr : r < P) :
    (∃ i j k, a.Beyond r i j k) ↔ (a.outs r).count < (a.ins r).count := by
  constructor
  · rintro ⟨i, j, k, h⟩
    have h1 := (addr3_range (permute := 0) (nqty := 1) (q := 0) h.1 (by decide)).2
    rw [← Box3.count_of_has h.1] at h1
    have h2 := (Args3.beyond_iff h.1).mp h
    omega
  · intro h
    have hp := (hv.properIn r hr).1
    have hc0 : 0 ≤ (a.outs r).count := by
      unfold Box3.count
      positivity
    unfold Box3.count at h
    rw [max_eq_left hp.1, max_eq_left hp.2.1, max_eq_left hp.2.2] at h
    have hpos : 0 < (a.ins r).isize * (a.ins r).jsize * (a.ins r).ksize := by
      unfold Box3.count at hc0
      omega
    have h1 : 0 < (a.ins r).isize := by
      rcases hp.1.lt_or_eq with h1 | h1
      · exact h1
      · rw [← h1] at hpos; simp at hpos
    have h2 : 0 < (a.ins r).jsize := by
      rcases hp.2.1.lt_or_eq with h1 | h1
      · exact h1
      · rw [← h1] at hpos; simp at hpos
    have h3 : 0 < (a.ins r).ksize := by
      rcases hp.2.2.lt_or_eq with h1 | h1
      · exact h1
      · rw [← h1] at hpos; simp at hpos
    refine ⟨(a.ins r).ihi, (a.ins r).jhi, (a.ins r).khi, ?_, ?_⟩
    · unfold Box3.isize at h1
      unfold Box3.jsize at h2
      unfold Box3.ksize at h3
      exact ⟨⟨by omega, le_rfl⟩, ⟨by omega, le_rfl⟩, ⟨by omega, le_rfl⟩⟩
    · have e1 : (a.ins r).ihi - (a.ins r).ilo = (a.ins r).isize - 1 := by unfold Box3.isize; omega
      have e2 : (a.ins r).jhi - (a.ins r).jlo = (a.ins r).jsize - 1 := by unfold Box3.jsize; omega
      have e3 : (a.ins r).khi - (a.ins r).klo = (a.ins r).ksize - 1 := by unfold Box3.ksize; omega
      rw [e1, e2, e3]
      have e4 : (((a.ins r).ksize - 1) * (a.ins r).jsize + ((a.ins r).jsize - 1)) * (a.ins r).isize + ((a.ins r).isize - 1) =
          (a.ins r).isize * (a.ins r).jsize * (a.ins r).ksize - 1 := by ring
      rw [e4]
      unfold Box3.count at hc0 ⊢
      omega

theorem Args3.N_one {a : Args3} : a.N = 1 ↔ a.nfast * a.nmid * a.nslow = 1 := by
  unfold Args3.N
  exact_mod_cast Iff.rfl

/-- **C27, exactly, for given data.**  A scaled backward transform gives `1/(nfast*nmid*nslow)` times the inverse DFT at every
point of the input layout if and only if the grid has only one point or the inverse DFT is 0 at the points that are not
scaled. -/
theorem C27_exact {P : Nat} {a : Args3} {st : Settings} {f : Nat → Fft3 ℝ} (S : SetUp3 P a st f) (e : Bool)
    (J : Nat → Nat → Junk) {n : Nat} {X : Grid3} {m : Nat → LMem ℝ} (hX : Holds P a.permute a.outs n X m) (hb : Bufs P f n m)
    (hr : RoomBack P a st m) :
    ∃ m', Terminates e P (fun r => (f r).compute (J r) true false (-1) n n) m m' ∧
      (Holds P 0 a.ins n (fun i j k => 1 / (a.nfast * a.nmid * a.nslow) * a.dft true X i j k) m' ↔
        a.nfast * a.nmid * a.nslow = 1 ∨ ∀ r < P, ∀ i j k, a.Beyond r i j k → a.dft true X i j k = 0) := by
  obtain ⟨m', t, h⟩ := C27_scaled_points S e J hX hb hr
  have hN := S.args.N_pos
  refine ⟨m', t, ?_, ?_⟩
  · intro h'
    by_cases h1 : a.nfast * a.nmid * a.nslow = 1
    · exact Or.inl h1
    · refine Or.inr fun r hr i j k hb => ?_
      have hh := hb.1
      have hag := (h r hr).agree (h' r hr) hh
      rw [if_neg ((Args3.beyond_iff hh).mp hb)] at hag
      have hN' : (a.nfast * a.nmid * a.nslow : ℂ) ≠ 1 := by exact_mod_cast h1
      have hN0 : (a.nfast * a.nmid * a.nslow : ℂ) ≠ 0 := by
        have := hN.ne'
        unfold Args3.N at this
        exact_mod_cast this
      by_contra hz
      apply hN'
      rw [eq_comm, mul_eq_right₀ hz, div_eq_iff hN0, one_mul] at hag
      exact hag.symm
  · intro h' r hr i j k hh
    have hp := h r hr i j k hh
    dsimp only at hp ⊢
    by_cases hl : addr3 0 (a.ins r) 1 i j k 0 < (a.outs r).count
    · rw [if_pos hl] at hp
      exact hp
    · rw [if_neg hl] at hp
      rcases h' with h1 | h0
      · have h1' : (a.nfast * a.nmid * a.nslow : ℂ) = 1 := by exact_mod_cast h1
        rw [h1', div_one, one_mul]
        exact hp
      · have h0' := h0 r hr i j k ((Args3.beyond_iff hh).mpr hl)
        rw [h0'] at hp ⊢
        rw [mul_zero]
        exact hp

/-- Memory with room for everything in which every array holds `X` in the layout `bs`. -/
theorem SetUp3.mem_large {P : Nat} {a : Args3} {st : Settings} {f : Nat → Fft3 ℝ} (S : SetUp3 P a st f) {p : Int}
    {bs : Nat → Box3} (X : Grid3) (h : ∀ r < P, (bs r).count ≤ (f r).fftsize) :
    ∃ m, (∀ n, Holds P p bs n X m ∧ Bufs P f n m) ∧ RoomBack P a st m := by
  have hacc : ∀ x y : Int, accessible (fun z => if 0 ≤ z ∧ z < max x y then some (0 : ℝ) else none) 0 x := by
    intro x y z h0 h1
    dsimp only
    rw [if_pos ⟨h0, by have := le_max_left x y; omega⟩]
    rfl
  refine ⟨memOf f p bs X (fun r => max (2 * (f r).fftsize) (f r).sendsize) (fun r => max (2 * (f r).fftsize) (f r).recvsize),
    fun n => ⟨fun r hr => arrayOf_holds (h r hr), memOf_bufs n (fun _ _ => le_max_right ..) (fun _ _ => le_max_right ..)⟩,
    S.room fun r _ => ⟨hacc _ _, hacc _ _⟩⟩

/-- **C27, exactly, for all data.**  For all data the scaled backward transform is right if and only if the grid has only one
point or no rank has more points on input than on output. -/
theorem C27_iff {P : Nat} {a : Args3} {st : Settings} {f : Nat → Fft3 ℝ} (S : SetUp3 P a st f) (e : Bool)
    (J : Nat → Nat → Junk) (n : Nat) :
    (∀ (X : Grid3) (m m' : Nat → LMem ℝ), Holds P a.permute a.outs n X m → Bufs P f n m → RoomBack P a st m →
      Terminates e P (fun r => (f r).compute (J r) true false (-1) n n) m m' →
      Holds P 0 a.ins n (fun i j k => 1 / (a.nfast * a.nmid * a.nslow) * a.dft true X i j k) m') ↔
    a.nfast * a.nmid * a.nslow = 1 ∨ ∀ r < P, (a.ins r).count ≤ (a.outs r).count := by
  constructor
  · intro h
    by_contra hc
    push Not at hc
    obtain ⟨h1, r, hr, hlt⟩ := hc
    obtain ⟨i, j, k, hb⟩ := (Args3.exists_beyond S.args hr).mpr hlt
    obtain ⟨c, rfl, rfl, rfl, _, R⟩ := S.ready
    obtain ⟨m, hm, hR⟩ := S.mem_large (p := c.a.permute) (bs := c.a.outs) (c.a.dft false fun _ _ _ => 1)
      fun r hr => R.size_outs hr
    obtain ⟨m', t, hi⟩ := C27_exact S e J (hm n).1 (hm n).2 hR
    rcases hi.mp (h _ m m' (hm n).1 (hm n).2 hR t) with h0 | h0
    · exact h1 h0
    · have h0 := h0 r hr i j k hb
      obtain ⟨q1, q2, q3⟩ := R.ins_tiles.inside r hr i j k hb.1
      have hd := R.dft_inv (fun _ _ _ => 1) i j k q1 q2 q3
      have ee : Ready.effect c false (-1) (c.a.dft false fun _ _ _ => 1) = c.a.dft true (c.a.dft false fun _ _ _ => 1) := by
        simp [Ready.effect]
      rw [ee, h0, mul_one] at hd
      have hN := S.args.N_pos.ne'
      exact hN (by exact_mod_cast hd.symm)
  · intro h X m m' hX hb hR t
    obtain ⟨m1, t1, hi⟩ := C27_exact S e J hX hb hR
    have hag := t.agree t1
    refine fun r hr => (hag r hr) ▸ (hi.mpr ?_ : Holds P 0 a.ins n _ m1) r hr
    rcases h with h | h
    · exact Or.inl h
    · refine Or.inr fun r hr i j k hb => absurd ((Args3.exists_beyond S.args hr).mp ⟨i, j, k, hb⟩) ?_
      have := h r hr
      omega

/-- **C22, exactly, for given data.**  Forward then backward `compute` with `scaled = 1` restores the values if and only if the
grid has only one point or the values at the points that are not scaled are 0. -/
theorem C22_exact {P : Nat} {a : Args3} {st : Settings} {f : Nat → Fft3 ℝ} (S : SetUp3 P a st f) (e : Bool)
    (J J' : Nat → Nat → Junk) {n : Nat} {X : Grid3} {m : Nat → LMem ℝ} (hX : Holds P 0 a.ins n X m) (hb : Bufs P f n m)
    (hr : RoomBack P a st m) :
    ∃ m', Terminates e P (fun r => (f r).compute (J r) true false 1 n n ++ (f r).compute (J' r) true false (-1) n n) m m' ∧
      (Holds P 0 a.ins n X m' ↔
        a.nfast * a.nmid * a.nslow = 1 ∨ ∀ r < P, ∀ i j k, a.Beyond r i j k → X i j k = 0) := by
  obtain ⟨m', s, h⟩ := round_trip S e J J' true hX hb hr
  rw [if_pos rfl] at h
  have hN : (a.N : ℂ) ≠ 0 := by exact_mod_cast S.args.N_pos.ne'
  have hs : ∀ z : ℂ, ((1 / a.N : ℝ) : ℂ) * ((a.N : ℂ) * z) = z := by
    intro z
    push_cast
    field_simp
  refine ⟨m', s.ok.terminates, ?_, ?_⟩
  · intro h'
    by_cases h1 : a.nfast * a.nmid * a.nslow = 1
    · exact Or.inl h1
    · refine Or.inr fun r hr i j k hb => ?_
      have hh := hb.1
      have hag := HoldsBox.agree (h r hr) (h' r hr) hh
      simp only [boxSize_eq_count (S.args.properOut r hr)] at hag
      rw [if_neg ((Args3.beyond_iff hh).mp hb)] at hag
      by_contra hz
      rw [mul_eq_right₀ hz] at hag
      exact h1 (Args3.N_one.mp (by exact_mod_cast hag))
  · intro h' r hr i j k hh
    have hp := h r hr i j k hh
    simp only [boxSize_eq_count (S.args.properOut r hr)] at hp
    by_cases hl : addr3 0 (a.ins r) 1 i j k 0 < (a.outs r).count
    · rw [if_pos hl, hs] at hp
      exact hp
    · rw [if_neg hl] at hp
      rcases h' with h1 | h0
      · rw [Args3.N_one.mpr h1] at hp
        simpa using hp
      · have h0' := h0 r hr i j k ((Args3.beyond_iff hh).mpr hl)
        rw [h0', mul_zero] at hp
        rw [h0']
        exact hp

/-- **C22, exactly, for all data.**  Forward then backward `compute` with `scaled = 1` restores all data if and only if the grid
has only one point or no rank has more points on input than on output. -/
theorem C22_iff {P : Nat} {a : Args3} {st : Settings} {f : Nat → Fft3 ℝ} (S : SetUp3 P a st f) (e : Bool)
    (J J' : Nat → Nat → Junk) (n : Nat) :
    (∀ (X : Grid3) (m m' : Nat → LMem ℝ), Holds P 0 a.ins n X m → Bufs P f n m → RoomBack P a st m →
      Terminates e P (fun r => (f r).compute (J r) true false 1 n n ++ (f r).compute (J' r) true false (-1) n n) m m' →
      Holds P 0 a.ins n X m') ↔
    a.nfast * a.nmid * a.nslow = 1 ∨ ∀ r < P, (a.ins r).count ≤ (a.outs r).count := by
  constructor
  · intro h
    by_contra hc
    push Not at hc
    obtain ⟨h1, r, hr, hlt⟩ := hc
    obtain ⟨i, j, k, hb⟩ := (Args3.exists_beyond S.args hr).mpr hlt
    obtain ⟨c, rfl, rfl, rfl, _, R⟩ := S.ready
    obtain ⟨m, hm, hR⟩ := S.mem_large (p := 0) (bs := c.a.ins) (fun _ _ _ => 1) fun r hr => R.size_ins hr
    obtain ⟨m', t, hi⟩ := C22_exact S e J J' (hm n).1 (hm n).2 hR
    rcases hi.mp (h _ m m' (hm n).1 (hm n).2 hR t) with h0 | h0
    · exact h1 h0
    · exact one_ne_zero (h0 r hr i j k hb)
  · intro h X m m' hX hb hR t
    obtain ⟨m1, t1, hi⟩ := C22_exact S e J J' hX hb hR
    have hag := t.agree t1
    refine fun r hr => (hag r hr) ▸ (hi.mpr ?_ : Holds P 0 a.ins n _ m1) r hr
    rcases h with h | h
    · exact Or.inl h
    · refine Or.inr fun r hr i j k hb => absurd ((Args3.exists_beyond S.args hr).mp ⟨i, j, k, hb⟩) ?_
      have := h r hr
      omega

/-- Examples: `demo3 1` (equal counts) restores all data, `moved` (rank 0 has the input, rank 1 the output) does not; but with
`moved` it does restore the zero grid. -/
example (st : Settings) (hst : st.Valid) :
    (∃ f, SetUp3 2 (demo3 1) st f ∧ ∀ (X : Grid3) (m m' : Nat → LMem ℝ), Holds 2 0 (demo3 1).ins 0 X m → Bufs 2 f 0 m →
      RoomBack 2 (demo3 1) st m →
      Terminates false 2 (fun r => (f r).compute (fun _ _ => (0, 0)) true false 1 0 0 ++
        (f r).compute (fun _ _ => (0, 0)) true false (-1) 0 0) m m' → Holds 2 0 (demo3 1).ins 0 X m') ∧
    (∃ f, SetUp3 2 moved st f ∧ ¬ ∀ (X : Grid3) (m m' : Nat → LMem ℝ), Holds 2 0 moved.ins 0 X m → Bufs 2 f 0 m →
      RoomBack 2 moved st m →
      Terminates false 2 (fun r => (f r).compute (fun _ _ => (0, 0)) true false 1 0 0 ++
        (f r).compute (fun _ _ => (0, 0)) true false (-1) 0 0) m m' → Holds 2 0 moved.ins 0 X m') := by
  constructor
  · obtain ⟨f, S⟩ := setUp3_exists (demo3_valid 1 (by decide)) hst
    refine ⟨f, S, (C22_iff S false (fun _ _ _ => (0, 0)) (fun _ _ _ => (0, 0)) 0).mpr (Or.inr fun r hr => ?_)⟩
    have hr' : r = 0 ∨ r = 1 := by omega
    rcases hr' with rfl | rfl <;> decide +kernel
  · obtain ⟨f, S⟩ := setUp3_exists moved_valid hst
    refine ⟨f, S, fun h => ?_⟩
    rcases (C22_iff S false (fun _ _ _ => (0, 0)) (fun _ _ _ => (0, 0)) 0).mp h with h | h
    · exact absurd h (by decide)
    · exact absurd (h 0 (by decide)) (by decide +kernel)

/-! ## 2d -/

theorem HoldsBox2.agree {p : Int} {b : Box2} {X Y : Grid2} {u : Mem ℝ} (h : HoldsBox2 p b X u) (h' : HoldsBox2 p b Y u)
    {i j : Int} (hh : b.Has i j) : X i j = Y i j := by
  obtain ⟨h1, h2⟩ := h i j hh
  obtain ⟨h3, h4⟩ := h' i j hh
  rw [h1] at h3
  rw [h2] at h4
  exact Complex.ext (Option.some.inj h3) (Option.some.inj h4)

/-- The points of the input box of rank `r` that a scaled backward transform leaves as they are. -/
def Args2.Beyond (a : Args2) (r : Nat) (i j : Int) : Prop :=
  (a.ins r).Has i j ∧ (a.outs r).count ≤ (j - (a.ins r).jlo) * (a.ins r).isize + (i - (a.ins r).ilo)

theorem Args2.beyond_iff {a : Args2} {r : Nat} {i j : Int} (h : (a.ins r).Has i j) :
    a.Beyond r i j ↔ ¬ addr2 0 (a.ins r) 1 i j 0 < (a.outs r).count := by
  unfold Args2.Beyond addr2
  rw [if_pos rfl]
  constructor
  · rintro ⟨_, h'⟩
    omega
  · intro h'
    exact ⟨h, by omega⟩

theorem Args2.exists_beyond {a : Args2} {P : Nat} (hv : a.Valid P) {r : Nat} (hr : r < P) :
    (∃ i j, a.Beyond r i j) ↔ (a.outs r).count < (a.ins r).count := by
  constructor
  · rintro ⟨i, j, h⟩
    have h1 := (addr2_range (permute := 0) (nqty := 1) (q := 0) (Or.inl rfl) h.1 (by decide)).2
    have h2 := (Args2.beyond_iff h.1).mp h
    omega
  · intro h
    have hp := (hv.properIn r hr).1
    have hc0 : 0 ≤ (a.outs r).count := by
      unfold Box2.count
      positivity
    unfold Box2.count at h
    rw [max_eq_left hp.1, max_eq_left hp.2] at h
    have hpos : 0 < (a.ins r).isize * (a.ins r).jsize := by
      unfold Box2.count at hc0
      omega
    have h1 : 0 < (a.ins r).isize := by
      rcases hp.1.lt_or_eq with h1 | h1
      · exact h1
      · rw [← h1] at hpos; simp at hpos
    have h2 : 0 < (a.ins r).jsize := by
      rcases hp.2.lt_or_eq with h1 | h1
      · exact h1
      · rw [← h1] at hpos; simp at hpos
    refine ⟨(a.ins r).ihi, (a.ins r).jhi, ?_, ?_⟩
    · unfold Box2.isize at h1
      unfold Box2.jsize at h2
      exact ⟨⟨by omega, le_rfl⟩, ⟨by omega, le_rfl⟩⟩
    · have e1 : (a.ins r).ihi - (a.ins r).ilo = (a.ins r).isize - 1 := by unfold Box2.isize; omega
      have e2 : (a.ins r).jhi - (a.ins r).jlo = (a.ins r).jsize - 1 := by unfold Box2.jsize; omega
      rw [e1, e2]
      have e4 : ((a.ins r).jsize - 1) * (a.ins r).isize + ((a.ins r).isize - 1) =
          (a.ins r).isize * (a.ins r).jsize - 1 := by ring
      rw [e4]
      unfold Box2.count at hc0 ⊢
      omega

theorem Args2.N_one {a : Args2} : a.N = 1 ↔ a.nfast * a.nslow = 1 := by
  unfold Args2.N
  exact_mod_cast Iff.rfl

/-- **C27 in 2d, exactly, for given data.** -/
theorem C27_exact_2d {w : Int} {P : Nat} {a : Args2} {st : Settings} {f : Nat → Fft2 ℝ} (S : SetUp2 w P a st f) (e : Bool)
    (J : Nat → Nat → Junk) {n : Nat} {X : Grid2} {m : Nat → LMem ℝ} (hX : Holds2 P a.permute a.outs n X m)
    (hb : Bufs2 P f n m) :
    ∃ m', Terminates e P (fun r => (f r).compute (J r) true false (-1) n n) m m' ∧
      (Holds2 P 0 a.ins n (fun i j => 1 / (a.nfast * a.nslow) * a.dft true X i j) m' ↔
        a.nfast * a.nslow = 1 ∨ ∀ r < P, ∀ i j, a.Beyond r i j → a.dft true X i j = 0) := by
  obtain ⟨m', t, h⟩ := C27_scaled_points_2d S e J hX hb
  have hN := S.args.N_pos
  refine ⟨m', t, ?_, ?_⟩
  · intro h'
    by_cases h1 : a.nfast * a.nslow = 1
    · exact Or.inl h1
    · refine Or.inr fun r hr i j hb => ?_
      have hh := hb.1
      have hag := (h r hr).agree (h' r hr) hh
      rw [if_neg ((Args2.beyond_iff hh).mp hb)] at hag
      have hN' : (a.nfast * a.nslow : ℂ) ≠ 1 := by exact_mod_cast h1
      have hN0 : (a.nfast * a.nslow : ℂ) ≠ 0 := by
        have := hN.ne'
        unfold Args2.N at this
        exact_mod_cast this
      by_contra hz
      apply hN'
      rw [eq_comm, mul_eq_right₀ hz, div_eq_iff hN0, one_mul] at hag
      exact hag.symm
  · intro h' r hr i j hh
    have hp := h r hr i j hh
    dsimp only at hp ⊢
    by_cases hl : addr2 0 (a.ins r) 1 i j 0 < (a.outs r).count
    · rw [if_pos hl] at hp
      exact hp
    · rw [if_neg hl] at hp
      rcases h' with h1 | h0
      · have h1' : (a.nfast * a.nslow : ℂ) = 1 := by exact_mod_cast h1
        rw [h1', div_one, one_mul]
        exact hp
      · have h0' := h0 r hr i j ((Args2.beyond_iff hh).mpr hl)
        rw [h0'] at hp ⊢
        rw [mul_zero]
        exact hp

/-- **C27 in 2d, exactly, for all data.** -/
theorem C27_iff_2d {w : Int} {P : Nat} {a : Args2} {st : Settings} {f : Nat → Fft2 ℝ} (S : SetUp2 w P a st f) (e : Bool)
    (J : Nat → Nat → Junk) (n : Nat) :
    (∀ (X : Grid2) (m m' : Nat → LMem ℝ), Holds2 P a.permute a.outs n X m → Bufs2 P f n m →
      Terminates e P (fun r => (f r).compute (J r) true false (-1) n n) m m' →
      Holds2 P 0 a.ins n (fun i j => 1 / (a.nfast * a.nslow) * a.dft true X i j) m') ↔
    a.nfast * a.nslow = 1 ∨ ∀ r < P, (a.ins r).count ≤ (a.outs r).count := by
  constructor
  · intro h
    by_contra hc
    push Not at hc
    obtain ⟨h1, r, hr, hlt⟩ := hc
    obtain ⟨i, j, hb⟩ := (Args2.exists_beyond S.args hr).mpr hlt
    obtain ⟨m, hm⟩ := S.mem_out (a.dft false fun _ _ => 1)
    obtain ⟨m', t, hi⟩ := C27_exact_2d S e J (hm n).1 (hm n).2
    rcases hi.mp (h _ m m' (hm n).1 (hm n).2 t) with h0 | h0
    · exact h1 h0
    · obtain ⟨c, rfl, rfl, rfl, rfl, _, R⟩ := S.ready
      have h0 := h0 r hr i j hb
      obtain ⟨q1, q2⟩ := R.ins_tiles.inside r hr i j hb.1
      have hd := R.dft_inv (fun _ _ => 1) i j q1 q2
      have ee : Ready2.effect c false (-1) (c.a.dft false fun _ _ => 1) = c.a.dft true (c.a.dft false fun _ _ => 1) := by
        simp [Ready2.effect]
      rw [ee, h0, mul_one] at hd
      have hN := S.args.N_pos.ne'
      exact hN (by exact_mod_cast hd.symm)
  · intro h X m m' hX hb t
    obtain ⟨m1, t1, hi⟩ := C27_exact_2d S e J hX hb
    have hag := t.agree t1
    refine fun r hr => (hag r hr) ▸ (hi.mpr ?_ : Holds2 P 0 a.ins n _ m1) r hr
    rcases h with h | h
    · exact Or.inl h
    · refine Or.inr fun r hr i j hb => absurd ((Args2.exists_beyond S.args hr).mp ⟨i, j, hb⟩) ?_
      have := h r hr
      omega

/-- **C42, exactly, for given data.**  Forward then backward `compute` with `scaled = 1` restores the values if and only if the
grid has only one point or the values at the points that are not scaled are 0. -/
theorem C42_exact {w : Int} {P : Nat} {a : Args2} {st : Settings} {f : Nat → Fft2 ℝ} (S : SetUp2 w P a st f) (e : Bool)
    (J J' : Nat → Nat → Junk) {n : Nat} {X : Grid2} {m : Nat → LMem ℝ} (hX : Holds2 P 0 a.ins n X m) (hb : Bufs2 P f n m) :
    ∃ m', Terminates e P (fun r => (f r).compute (J r) true false 1 n n ++ (f r).compute (J' r) true false (-1) n n) m m' ∧
      (Holds2 P 0 a.ins n X m' ↔ a.nfast * a.nslow = 1 ∨ ∀ r < P, ∀ i j, a.Beyond r i j → X i j = 0) := by
  obtain ⟨m', s, h⟩ := round_trip2 S e J J' true hX hb
  rw [if_pos rfl] at h
  have hN : (a.N : ℂ) ≠ 0 := by exact_mod_cast S.args.N_pos.ne'
  have hs : ∀ z : ℂ, ((1 / a.N : ℝ) : ℂ) * ((a.N : ℂ) * z) = z := by
    intro z
    push_cast
    field_simp
  refine ⟨m', s.ok.terminates, ?_, ?_⟩
  · intro h'
    by_cases h1 : a.nfast * a.nslow = 1
    · exact Or.inl h1
    · refine Or.inr fun r hr i j hb => ?_
      have hh := hb.1
      have hag := HoldsBox2.agree (h r hr) (h' r hr) hh
      simp only [boxSize2_eq_count (S.args.properOut r hr)] at hag
      rw [if_neg ((Args2.beyond_iff hh).mp hb)] at hag
      by_contra hz
      rw [mul_eq_right₀ hz] at hag
      exact h1 (Args2.N_one.mp (by exact_mod_cast hag))
  · intro h' r hr i j hh
    have hp := h r hr i j hh
    simp only [boxSize2_eq_count (S.args.properOut r hr)] at hp
    by_cases hl : addr2 0 (a.ins r) 1 i j 0 < (a.outs r).count
    · rw [if_pos hl, hs] at hp
      exact hp
    · rw [if_neg hl] at hp
      rcases h' with h1 | h0
      · rw [Args2.N_one.mpr h1] at hp
        simpa using hp
      · have h0' := h0 r hr i j ((Args2.beyond_iff hh).mpr hl)
        rw [h0', mul_zero] at hp
        rw [h0']
        exact hp

/-- **C42, exactly, for all data.** -/
theorem C42_iff {w : Int} {P : Nat} {a : Args2} {st : Settings} {f : Nat → Fft2 ℝ} (S : SetUp2 w P a st f) (e : Bool)
    (J J' : Nat → Nat → Junk) (n : Nat) :
    (∀ (X : Grid2) (m m' : Nat → LMem ℝ), Holds2 P 0 a.ins n X m → Bufs2 P f n m →
      Terminates e P (fun r => (f r).compute (J r) true false 1 n n ++ (f r).compute (J' r) true false (-1) n n) m m' →
      Holds2 P 0 a.ins n X m') ↔
    a.nfast * a.nslow = 1 ∨ ∀ r < P, (a.ins r).count ≤ (a.outs r).count := by
  constructor
  · intro h
    by_contra hc
    push Not at hc
    obtain ⟨h1, r, hr, hlt⟩ := hc
    obtain ⟨i, j, hb⟩ := (Args2.exists_beyond S.args hr).mpr hlt
    obtain ⟨m, hm⟩ := S.mem_in (fun _ _ => 1)
    obtain ⟨m', t, hi⟩ := C42_exact S e J J' (hm n).1 (hm n).2
    rcases hi.mp (h _ m m' (hm n).1 (hm n).2 t) with h0 | h0
    · exact h1 h0
    · exact one_ne_zero (h0 r hr i j hb)
  · intro h X m m' hX hb t
    obtain ⟨m1, t1, hi⟩ := C42_exact S e J J' hX hb
    have hag := t.agree t1
    refine fun r hr => (hag r hr) ▸ (hi.mpr ?_ : Holds2 P 0 a.ins n _ m1) r hr
    rcases h with h | h
    · exact Or.inl h
    · refine Or.inr fun r hr i j hb => absurd ((Args2.exists_beyond S.args hr).mp ⟨i, j, hb⟩) ?_
      have := h r hr
      omega

/-- Examples: `plane2 1` (equal counts) restores all data, `moved2` (rank 0 has the input, rank 1 the output) does not. -/
example (w : Int) (st : Settings) (hst : st.Valid2 w) :
    (∃ f, SetUp2 w 2 (plane2 1) st f ∧ ∀ (X : Grid2) (m m' : Nat → LMem ℝ), Holds2 2 0 (plane2 1).ins 0 X m → Bufs2 2 f 0 m →
      Terminates false 2 (fun r => (f r).compute (fun _ _ => (0, 0)) true false 1 0 0 ++
        (f r).compute (fun _ _ => (0, 0)) true false (-1) 0 0) m m' → Holds2 2 0 (plane2 1).ins 0 X m') ∧
    (∃ f, SetUp2 w 2 moved2 st f ∧ ¬ ∀ (X : Grid2) (m m' : Nat → LMem ℝ), Holds2 2 0 moved2.ins 0 X m → Bufs2 2 f 0 m →
      Terminates false 2 (fun r => (f r).compute (fun _ _ => (0, 0)) true false 1 0 0 ++
        (f r).compute (fun _ _ => (0, 0)) true false (-1) 0 0) m m' → Holds2 2 0 moved2.ins 0 X m') := by
  constructor
  · obtain ⟨f, S⟩ := setUp2_exists (plane2_valid 1 (by decide)) hst
    refine ⟨f, S, (C42_iff S false (fun _ _ _ => (0, 0)) (fun _ _ _ => (0, 0)) 0).mpr (Or.inr fun r hr => ?_)⟩
    have hr' : r = 0 ∨ r = 1 := by omega
    rcases hr' with rfl | rfl <;> decide +kernel
  · obtain ⟨f, S⟩ := setUp2_exists moved2_valid hst
    refine ⟨f, S, fun h => ?_⟩
    rcases (C42_iff S false (fun _ _ _ => (0, 0)) (fun _ _ _ => (0, 0)) 0).mp h with h | h
    · exact absurd h (by decide)
    · exact absurd (h 0 (by decide)) (by decide +kernel)

end FftMpi
