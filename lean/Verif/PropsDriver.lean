import Verif.DriverRound
import Verif.PropsFft3d
import Verif.PropsFft2d

/-!
# C60: the partition computed by the test programs
-/

noncomputable section

namespace FftMpi

open Driver

/-! ## What `options` guarantees -/

/-- A processor grid from the command line: not given (all zero), or one for `P` processors. -/
def Driver.GridArg3 (p : Nat × Nat × Nat) (P : Nat) : Prop := p = (0, 0, 0) ∨ p.1 * p.2.1 * p.2.2 = P
def Driver.GridArg2 (p : Nat × Nat) (P : Nat) : Prop := p = (0, 0) ∨ p.1 * p.2 = P

/-- Options of test3d that pass the checks of `options` on all `P` ranks, test3d.cpp:372-397; the sizes are `int`
and the number of ranks is positive. -/
structure Driver.Opt3.Accepted (o : Opt3) (P : Nat) : Prop where
  procs : 0 < P
  nx : 0 < o.nx ∧ o.nx < 2 ^ 31
  ny : 0 < o.ny ∧ o.ny < 2 ^ 31
  nz : 0 < o.nz ∧ o.nz < 2 ^ 31
  pin : GridArg3 o.pin P
  pout : GridArg3 o.pout P
  seed : ∀ n, o.iflag = .random n → ∀ r < P, 0 < n + (r : Int) ∧ n + (r : Int) < 2 ^ 31
  mode : o.mode ≤ 3
  pflag : o.pflag = 0 ∨ o.pflag = 1 ∨ o.pflag = 2

/-- Options of test2d that pass the checks of `options`, test2d.cpp:368-393. -/
structure Driver.Opt2.Accepted (o : Opt2) (P : Nat) : Prop where
  procs : 0 < P
  nx : 0 < o.nx ∧ o.nx < 2 ^ 31
  ny : 0 < o.ny ∧ o.ny < 2 ^ 31
  pin : GridArg2 o.pin P
  pout : GridArg2 o.pout P
  seed : ∀ n, o.iflag = .random n → ∀ r < P, 0 < n + (r : Int) ∧ n + (r : Int) < 2 ^ 31
  mode : o.mode ≤ 3
  pflag : o.pflag = 0 ∨ o.pflag = 1 ∨ o.pflag = 2

/-- The default options of test3d, test3d.cpp:272-285. -/
def Driver.default3 : Opt3 := ⟨8, 8, 8, (0, 0, 0), (0, 0, 0), 1, .zero, 0, 2, 0, 2, false⟩
/-- The default options of test2d, test2d.cpp:271-284. -/
def Driver.default2 : Opt2 := ⟨8, 8, (0, 0), (0, 0), 1, .zero, 0, 2, 0, 2, false⟩

theorem default3_accepted {P : Nat} (h : 0 < P) : default3.Accepted P where
  procs := h
  nx := by decide
  ny := by decide
  nz := by decide
  pin := Or.inl rfl
  pout := Or.inl rfl
  seed n h := (nomatch h)
  mode := by decide
  pflag := Or.inr (Or.inr rfl)

theorem default2_accepted {P : Nat} (h : 0 < P) : default2.Accepted P where
  procs := h
  nx := by decide
  ny := by decide
  pin := Or.inl rfl
  pout := Or.inl rfl
  seed n h := (nomatch h)
  mode := by decide
  pflag := Or.inr (Or.inr rfl)

/-! ## The search -/

variable {rnd : ℝ → ℝ}

/-- **C60 (search, 3d).**  `proc3d` never reports an error: for every grid and every number of ranks it finds a
processor grid with as many processors as there are ranks, and its boxes have, up to rounding, the smallest
surface of all such processor grids. -/
theorem C60_proc3d (R : Rounding rnd) {nx ny nz P : Nat} (hx : 0 < nx ∧ nx < 2 ^ 31) (hy : 0 < ny ∧ ny < 2 ^ 31)
    (hz : 0 < nz ∧ nz < 2 ^ 31) (hP : 0 < P ∧ P < 2 ^ 31) (p0 : Nat × Nat × Nat) :
    ∃ p, proc3d rnd nx ny nz P p0 = some p ∧ p.1 * p.2.1 * p.2.2 = P ∧
      ∀ q : Nat × Nat × Nat, q.1 * q.2.1 * q.2.2 = P → area3 nx ny nz p ≤ (1 + 1 / 2 ^ 49) * area3 nx ny nz q := by
  obtain ⟨p, h1, h2, h3⟩ := proc3d_ok R hx.1 hy.1 hz.1 hP.1 hx.2 hy.2 hz.2 p0
  refine ⟨p, h1, h2, fun q hq => ?_⟩
  have key : ∀ c : Nat × Nat × Nat, c.1 * c.2.1 * c.2.2 = P → NearR 5 (area3 nx ny nz c) (surf3 rnd nx ny nz c) := by
    intro c hc
    have q1 : 0 < c.1 := Nat.pos_of_ne_zero (by intro h; rw [h] at hc; simp at hc; omega)
    have q2 : 0 < c.2.1 := Nat.pos_of_ne_zero (by intro h; rw [h] at hc; simp at hc; omega)
    have q3 : 0 < c.2.2 := Nat.pos_of_ne_zero (by intro h; rw [h] at hc; simp at hc; omega)
    have l1 : c.1 ≤ P := by rw [← hc, mul_assoc]; exact Nat.le_mul_of_pos_right _ (Nat.mul_pos q2 q3)
    have l2 : c.2.1 ≤ P := by
      rw [← hc, mul_comm c.1, mul_assoc]; exact Nat.le_mul_of_pos_right _ (Nat.mul_pos q1 q3)
    have l3 : c.2.2 ≤ P := by rw [← hc]; exact Nat.le_mul_of_pos_left _ (Nat.mul_pos q1 q2)
    exact surf3_near R hx.1 hy.1 hz.1 hx.2 hy.2 hz.2 ⟨q1, by omega⟩ ⟨q2, by omega⟩ ⟨q3, by omega⟩
  refine NearR.min (by omega) ?_ (key p h2) (key q hq) (h3 q hq)
  unfold area3
  positivity

/-- **C60 (search, 3d, exact arithmetic).**  Without rounding the surface is the smallest. -/
theorem C60_proc3d_exact {nx ny nz P : Nat} (hx : 0 < nx ∧ nx < 2 ^ 31) (hy : 0 < ny ∧ ny < 2 ^ 31)
    (hz : 0 < nz ∧ nz < 2 ^ 31) (hP : 0 < P) (p0 : Nat × Nat × Nat) :
    ∃ p, proc3d id nx ny nz P p0 = some p ∧ p.1 * p.2.1 * p.2.2 = P ∧
      ∀ q : Nat × Nat × Nat, q.1 * q.2.1 * q.2.2 = P → area3 nx ny nz p ≤ area3 nx ny nz q := by
  obtain ⟨p, h1, h2, h3⟩ := proc3d_ok roundingExact hx.1 hy.1 hz.1 hP hx.2 hy.2 hz.2 p0
  exact ⟨p, h1, h2, h3⟩

/-- **C60 (search, 2d).** -/
theorem C60_proc2d (R : Rounding rnd) {nx ny P : Nat} (hx : 0 < nx ∧ nx < 2 ^ 31) (hy : 0 < ny ∧ ny < 2 ^ 31)
    (hP : 0 < P ∧ P < 2 ^ 31) (p0 : Nat × Nat) :
    ∃ p, proc2d rnd nx ny P p0 = some p ∧ p.1 * p.2 = P ∧
      ∀ q : Nat × Nat, q.1 * q.2 = P → edge2 nx ny p ≤ (1 + 1 / 2 ^ 49) * edge2 nx ny q := by
  obtain ⟨p, h1, h2, h3⟩ := proc2d_ok R hx.1 hy.1 hP.1 hx.2 hy.2 p0
  refine ⟨p, h1, h2, fun q hq => ?_⟩
  have key : ∀ c : Nat × Nat, c.1 * c.2 = P → NearR 2 (edge2 nx ny c) (surf2 rnd nx ny c) := by
    intro c hc
    have q1 : 0 < c.1 := Nat.pos_of_ne_zero (by intro h; rw [h] at hc; simp at hc; omega)
    have q2 : 0 < c.2 := Nat.pos_of_ne_zero (by intro h; rw [h] at hc; simp at hc; omega)
    have l1 : c.1 ≤ P := by rw [← hc]; exact Nat.le_mul_of_pos_right _ q2
    have l2 : c.2 ≤ P := by rw [← hc]; exact Nat.le_mul_of_pos_left _ q1
    exact surf2_near R hx.1 hy.1 hx.2 hy.2 ⟨q1, by omega⟩ ⟨q2, by omega⟩
  refine NearR.min (by omega) ?_ (key p h2) (key q hq) (h3 q hq)
  unfold edge2
  positivity

/-- Sizes and a rounding that meet the hypotheses; 6 ranks are not a cube. -/
example : Rounding rnd53 ∧ ∃ p, proc3d rnd53 8 8 8 6 (0, 0, 0) = some p ∧ p.1 * p.2.1 * p.2.2 = 6 ∧
    area3 8 8 8 p ≤ (1 + 1 / 2 ^ 49) * area3 8 8 8 (1, 2, 3) := by
  obtain ⟨p, h1, h2, h3⟩ := C60_proc3d rounding53 (nx := 8) (ny := 8) (nz := 8) (P := 6) (by decide) (by decide)
    (by decide) (by decide) (0, 0, 0)
  exact ⟨rounding53, p, h1, h2, h3 (1, 2, 3) rfl⟩

/-! ## The boxes -/

/-- The processor grids of the options. -/
theorem inGrid3_ok (R : Rounding rnd) {o : Opt3} {P : Nat} (ho : o.Accepted P) :
    ∃ p, o.inGrid rnd P = some p ∧ p.1 * p.2.1 * p.2.2 = P := by
  unfold Opt3.inGrid
  rcases ho.pin with h | h
  · rw [if_neg (by simp [h])]
    obtain ⟨p, h1, h2, _⟩ := proc3d_ok R ho.nx.1 ho.ny.1 ho.nz.1 ho.procs ho.nx.2 ho.ny.2 ho.nz.2 o.pin
    exact ⟨p, h1, h2⟩
  · have hP := ho.procs
    rw [if_pos (Or.inl (by intro h0; rw [h0] at h; simp at h; omega))]
    exact ⟨_, rfl, h⟩

theorem outGrid3_ok (R : Rounding rnd) {o : Opt3} {P : Nat} (ho : o.Accepted P) :
    ∃ p, o.outGrid rnd P = some p ∧ p.1 * p.2.1 * p.2.2 = P := by
  have hP := ho.procs
  unfold Opt3.outGrid
  rcases ho.pout with h | h
  · rw [if_neg (by simp [h])]
    by_cases h0 : o.mode = 0 ∨ o.mode = 2
    · rw [if_pos h0]
      obtain ⟨p, h1, h2, _⟩ := proc3d_ok R ho.nx.1 ho.ny.1 ho.nz.1 ho.procs ho.nx.2 ho.ny.2 ho.nz.2 o.pout
      exact ⟨p, h1, h2⟩
    · have := ho.mode
      rw [if_neg h0, if_pos (by omega)]
      obtain ⟨p, h1, h2, _⟩ := proc2d_ok R ho.nx.1 ho.ny.1 ho.procs ho.nx.2 ho.ny.2 (o.pout.1, o.pout.2.1)
      rw [h1]
      exact ⟨_, rfl, by simpa using h2⟩
  · rw [if_pos (Or.inl (by intro h0; rw [h0] at h; simp at h; omega))]
    exact ⟨_, rfl, h⟩

theorem inGrid2_ok (R : Rounding rnd) {o : Opt2} {P : Nat} (ho : o.Accepted P) :
    ∃ p, o.inGrid rnd P = some p ∧ p.1 * p.2 = P := by
  unfold Opt2.inGrid
  rcases ho.pin with h | h
  · rw [if_neg (by simp [h])]
    obtain ⟨p, h1, h2, _⟩ := proc2d_ok R ho.nx.1 ho.ny.1 ho.procs ho.nx.2 ho.ny.2 o.pin
    exact ⟨p, h1, h2⟩
  · have hP := ho.procs
    rw [if_pos (Or.inl (by intro h0; rw [h0] at h; simp at h; omega))]
    exact ⟨_, rfl, h⟩

theorem outGrid2_ok {o : Opt2} {P : Nat} (ho : o.Accepted P) :
    ∃ p, o.outGrid P = some p ∧ p.1 * p.2 = P := by
  unfold Opt2.outGrid
  rcases ho.pout with h | h
  · rw [if_neg (by simp [h])]
    exact ⟨_, rfl, by simp⟩
  · have hP := ho.procs
    rw [if_pos (Or.inl (by intro h0; rw [h0] at h; simp at h; omega))]
    exact ⟨_, rfl, h⟩

/-- The numbers `np*n` fit into the 53 bits of a `double`. -/
def Driver.Opt3.Small (o : Opt3) (P : Nat) : Prop := P * o.nx < 2 ^ 53 ∧ P * o.ny < 2 ^ 53 ∧ P * o.nz < 2 ^ 53
def Driver.Opt2.Small (o : Opt2) (P : Nat) : Prop := P * o.nx < 2 ^ 53 ∧ P * o.ny < 2 ^ 53

/-- Dimensions that the library supports: at least 2, factors 2, 3, 5. -/
def Driver.Supported (n : Nat) : Prop := 2 ≤ n ∧ ∀ p : Nat, p.Prime → p ∣ n → p = 2 ∨ p = 3 ∨ p = 5

theorem int_dim {n : Nat} (h : 2 ≤ n) (h' : n < 2 ^ 31) : (2 : Int) ≤ (n : Int) ∧ (n : Int) < 2 ^ 31 := by omega

/-- `Box3.Proper` and so on of the boxes of the test program. -/
theorem box3_good (R : Rounding rnd) {o : Opt3} {P : Nat} (ho : o.Accepted P) (hs : o.Small P)
    {p : Nat × Nat × Nat} (hp : p.1 * p.2.1 * p.2.2 = P) :
    Tiles3 P (box3 rnd p o.nx o.ny o.nz) o.nx o.ny o.nz ∧
      ∀ r < P, (box3 rnd p o.nx o.ny o.nz r).Proper ∧ (box3 rnd p o.nx o.ny o.nz r).Within o.nx o.ny o.nz := by
  have e : ∀ r < P, box3 rnd p o.nx o.ny o.nz r = gridBox p o.nx o.ny o.nz r := fun r hr =>
    box3_eq R hp ho.procs ⟨ho.nx.1, hs.1⟩ ⟨ho.ny.1, hs.2.1⟩ ⟨ho.nz.1, hs.2.2⟩ hr
  have T := gridBox_tiles hp ho.procs o.nx o.ny o.nz
  refine ⟨⟨?_, ?_, ?_⟩, ?_⟩
  · intro a ha i j k hh
    rw [e a ha] at hh
    exact T.inside a ha i j k hh
  · intro i j k hi hj hk
    obtain ⟨a, ha, hh⟩ := T.owner i j k hi hj hk
    exact ⟨a, ha, by rw [e a ha]; exact hh⟩
  · intro a ha b hb i j k h1 h2
    rw [e a ha] at h1
    rw [e b hb] at h2
    exact T.disjoint a ha b hb i j k h1 h2
  · intro r hr
    rw [e r hr]
    exact ⟨gridBox_sizes _ _ _ _ _, gridBox_within hp ho.procs _ _ _ hr⟩

theorem box2_good (R : Rounding rnd) {o : Opt2} {P : Nat} (ho : o.Accepted P) (hs : o.Small P)
    {p : Nat × Nat} (hp : p.1 * p.2 = P) :
    Tiles2 P (box2 rnd p o.nx o.ny) o.nx o.ny ∧
      ∀ r < P, (box2 rnd p o.nx o.ny r).Proper ∧ (box2 rnd p o.nx o.ny r).Within o.nx o.ny := by
  have e : ∀ r < P, box2 rnd p o.nx o.ny r = gridBox2 p o.nx o.ny r := fun r hr =>
    box2_eq R hp ho.procs ⟨ho.nx.1, hs.1⟩ ⟨ho.ny.1, hs.2⟩ hr
  have T := gridBox2_tiles hp ho.procs o.nx o.ny
  refine ⟨⟨?_, ?_, ?_⟩, ?_⟩
  · intro a ha i j hh
    rw [e a ha] at hh
    exact T.inside a ha i j hh
  · intro i j hi hj
    obtain ⟨a, ha, hh⟩ := T.owner i j hi hj
    exact ⟨a, ha, by rw [e a ha]; exact hh⟩
  · intro a ha b hb i j h1 h2
    rw [e a ha] at h1
    rw [e b hb] at h2
    exact T.disjoint a ha b hb i j h1 h2
  · intro r hr
    rw [e r hr]
    exact ⟨gridBox2_sizes _ _ _ _, gridBox2_within hp ho.procs _ _ hr⟩

/-- **C60 (boxes, 3d).**  For accepted options with at most 53 bits in `P*n`, the arguments that test3d passes to
`FFT3d::setup` are what the documentation requires, provided the library supports the grid sizes: the boxes of
the ranks tile the grid on input and on output. -/
theorem C60_args_valid (R : Rounding rnd) {o : Opt3} {P : Nat} (ho : o.Accepted P) (hs : o.Small P)
    (hx : Supported o.nx) (hy : Supported o.ny) (hz : Supported o.nz) :
    ∃ a, o.args rnd P = some a ∧ a.Valid P ∧ (a.nfast = o.nx ∧ a.nmid = o.ny ∧ a.nslow = o.nz) := by
  obtain ⟨p, h1, h2⟩ := inGrid3_ok R ho
  obtain ⟨q, h3, h4⟩ := outGrid3_ok R ho
  refine ⟨_, by unfold Opt3.args; rw [h1, h3]; rfl, ?_, rfl, rfl, rfl⟩
  obtain ⟨t1, g1⟩ := box3_good R ho hs h2
  obtain ⟨t2, g2⟩ := box3_good R ho hs h4
  exact {
    procs := ho.procs
    fast := int_dim hx.1 ho.nx.2
    mid := int_dim hy.1 ho.ny.2
    slow := int_dim hz.1 ho.nz.2
    factors := by
      rintro n (rfl | rfl | rfl) p hp hd
      · exact hx.2 p hp (Int.natCast_dvd_natCast.mp hd)
      · exact hy.2 p hp (Int.natCast_dvd_natCast.mp hd)
      · exact hz.2 p hp (Int.natCast_dvd_natCast.mp hd)
    tilesIn := t1
    tilesOut := t2
    properIn := g1
    properOut := fun r hr => (g2 r hr).1
    permute := by
      simp only
      split_ifs
      · exact Or.inl rfl
      · exact Or.inr (Or.inr rfl)
    round := ⟨(Nat.le_mul_of_pos_right _ ho.nx.1).trans (hs.1.le.trans (by norm_num)), R.rel⟩ }

/-- **C60 (which boxes).**  The boxes are the bricks of two processor grids: those that the user gave, if any.  In the
modes 1 and 3 the default for the output has one processor in z.  The order of the output is that of the input in modes 0
and 2 and z-first in modes 1 and 3. -/
theorem C60_args_boxes (R : Rounding rnd) {o : Opt3} {P : Nat} (ho : o.Accepted P) (hs : o.Small P) :
    ∃ (a : Args3) (p q : Nat × Nat × Nat), o.args rnd P = some a ∧ p.1 * p.2.1 * p.2.2 = P ∧ q.1 * q.2.1 * q.2.2 = P ∧
      (∀ r < P, a.ins r = gridBox p o.nx o.ny o.nz r ∧ a.outs r = gridBox q o.nx o.ny o.nz r) ∧
      (o.pin ≠ (0, 0, 0) → p = o.pin) ∧ (o.pout ≠ (0, 0, 0) → q = o.pout) ∧
      (o.pin = (0, 0, 0) → proc3d rnd o.nx o.ny o.nz P (0, 0, 0) = some p) ∧
      (o.pout = (0, 0, 0) → (o.mode = 0 ∨ o.mode = 2) → proc3d rnd o.nx o.ny o.nz P (0, 0, 0) = some q) ∧
      (o.pout = (0, 0, 0) → (o.mode = 1 ∨ o.mode = 3) → proc2d rnd o.nx o.ny P (0, 0) = some (q.1, q.2.1) ∧ q.2.2 = 1) ∧
      (o.mode = 0 ∨ o.mode = 2 → a.permute = 0) ∧ (o.mode = 1 ∨ o.mode = 3 → a.permute = 2) := by
  obtain ⟨p, h1, h2⟩ := inGrid3_ok R ho
  obtain ⟨q, h3, h4⟩ := outGrid3_ok R ho
  have ne : ∀ {t : Nat × Nat × Nat}, t ≠ (0, 0, 0) → t.1 ≠ 0 ∨ t.2.1 ≠ 0 ∨ t.2.2 ≠ 0 := by
    intro t h
    by_contra hc
    push Not at hc
    exact h (Prod.ext hc.1 (Prod.ext hc.2.1 hc.2.2))
  refine ⟨_, p, q, by unfold Opt3.args; rw [h1, h3]; rfl, h2, h4, ?_, ?_, ?_, ?_, ?_, ?_, ?_, ?_⟩
  · exact fun r hr => ⟨box3_eq R h2 ho.procs ⟨ho.nx.1, hs.1⟩ ⟨ho.ny.1, hs.2.1⟩ ⟨ho.nz.1, hs.2.2⟩ hr,
      box3_eq R h4 ho.procs ⟨ho.nx.1, hs.1⟩ ⟨ho.ny.1, hs.2.1⟩ ⟨ho.nz.1, hs.2.2⟩ hr⟩
  · intro h
    unfold Opt3.inGrid at h1
    rw [if_pos (ne h)] at h1
    exact (Option.some.inj h1).symm
  · intro h
    unfold Opt3.outGrid at h3
    rw [if_pos (ne h)] at h3
    exact (Option.some.inj h3).symm
  · intro h
    unfold Opt3.inGrid at h1
    rw [if_neg (by simp [h]), h] at h1
    exact h1
  · intro h hm
    unfold Opt3.outGrid at h3
    rw [if_neg (by simp [h]), if_pos hm, h] at h3
    exact h3
  · intro h hm
    unfold Opt3.outGrid at h3
    rw [if_neg (by simp [h]), if_neg (by omega), if_pos hm, h] at h3
    obtain ⟨t, ht, rfl⟩ := Option.map_eq_some_iff.mp h3
    exact ⟨ht, rfl⟩
  · intro hm
    exact if_pos hm
  · intro hm
    exact if_neg (by omega)

theorem C60_args_boxes_2d (R : Rounding rnd) {o : Opt2} {P : Nat} (ho : o.Accepted P) (hs : o.Small P) :
    ∃ (a : Args2) (p q : Nat × Nat), o.args rnd P = some a ∧ p.1 * p.2 = P ∧ q.1 * q.2 = P ∧
      a.nfast = o.nx ∧ a.nslow = o.ny ∧
      (∀ r < P, a.ins r = gridBox2 p o.nx o.ny r ∧ a.outs r = gridBox2 q o.nx o.ny r) ∧
      (o.pin ≠ (0, 0) → p = o.pin) ∧ (o.pout ≠ (0, 0) → q = o.pout) ∧
      (o.pin = (0, 0) → proc2d rnd o.nx o.ny P (0, 0) = some p) ∧ (o.pout = (0, 0) → q = (P, 1)) ∧
      (o.mode = 0 ∨ o.mode = 2 → a.permute = 0) ∧ (o.mode = 1 ∨ o.mode = 3 → a.permute = 2) := by
  obtain ⟨p, h1, h2⟩ := inGrid2_ok R ho
  obtain ⟨q, h3, h4⟩ := outGrid2_ok ho
  have ne : ∀ {t : Nat × Nat}, t ≠ (0, 0) → t.1 ≠ 0 ∨ t.2 ≠ 0 := by
    intro t h
    by_contra hc
    push Not at hc
    exact h (Prod.ext hc.1 hc.2)
  refine ⟨_, p, q, by unfold Opt2.args; rw [h1, h3]; rfl, h2, h4, rfl, rfl, ?_, ?_, ?_, ?_, ?_, ?_, ?_⟩
  · exact fun r hr => ⟨box2_eq R h2 ho.procs ⟨ho.nx.1, hs.1⟩ ⟨ho.ny.1, hs.2⟩ hr,
      box2_eq R h4 ho.procs ⟨ho.nx.1, hs.1⟩ ⟨ho.ny.1, hs.2⟩ hr⟩
  · intro h
    unfold Opt2.inGrid at h1
    rw [if_pos (ne h)] at h1
    exact (Option.some.inj h1).symm
  · intro h
    unfold Opt2.outGrid at h3
    rw [if_pos (ne h)] at h3
    exact (Option.some.inj h3).symm
  · intro h
    unfold Opt2.inGrid at h1
    rw [if_neg (by simp [h]), h] at h1
    exact h1
  · intro h
    unfold Opt2.outGrid at h3
    rw [if_neg (by simp [h])] at h3
    exact (Option.some.inj h3).symm
  · intro hm
    exact if_pos hm
  · intro hm
    exact if_neg (by omega)

/-- **C60 (boxes, 2d, partial).**  The same for test2d in modes 0 and 2.  Missing: modes 1 and 3, for which the
claim is false, see `C60_test2d_false`. -/
theorem C60_args_valid_2d_partial (R : Rounding rnd) {o : Opt2} {P : Nat} (ho : o.Accepted P) (hs : o.Small P)
    (hx : Supported o.nx) (hy : Supported o.ny) (hm : o.mode = 0 ∨ o.mode = 2) :
    ∃ a, o.args rnd P = some a ∧ a.Valid P ∧ (a.nfast = o.nx ∧ a.nslow = o.ny) := by
  obtain ⟨p, h1, h2⟩ := inGrid2_ok R ho
  obtain ⟨q, h3, h4⟩ := outGrid2_ok ho
  refine ⟨_, by unfold Opt2.args; rw [h1, h3]; rfl, ?_, rfl, rfl⟩
  obtain ⟨t1, g1⟩ := box2_good R ho hs h2
  obtain ⟨t2, g2⟩ := box2_good R ho hs h4
  exact {
    procs := ho.procs
    fast := int_dim hx.1 ho.nx.2
    slow := int_dim hy.1 ho.ny.2
    factors := by
      rintro n (rfl | rfl) p hp hd
      · exact hx.2 p hp (Int.natCast_dvd_natCast.mp hd)
      · exact hy.2 p hp (Int.natCast_dvd_natCast.mp hd)
    tilesIn := t1
    tilesOut := t2
    properIn := g1
    properOut := fun r hr => (g2 r hr).1
    permute := by
      simp only
      rw [if_pos hm]
      exact Or.inl rfl
    round := ⟨(Nat.le_mul_of_pos_right _ ho.nx.1).trans (hs.1.le.trans (by norm_num)), R.rel⟩ }

theorem supported_of {n k : Nat} (h2 : 2 ≤ n) (h : n ∣ 30 ^ k) : Supported n :=
  ⟨h2, fun p hp hd => fiveSmooth_of_dvd (n := (n : Int)) rfl h p hp (Int.natCast_dvd_natCast.mpr hd)⟩

/-- The default options on 6 ranks meet the hypotheses, and a grid with different sizes. -/
example : Rounding rnd53 ∧ default3.Accepted 6 ∧ default3.Small 6 ∧ Supported default3.nx ∧
    default2.Accepted 6 ∧ default2.Small 6 ∧ Supported 60 :=
  ⟨rounding53, default3_accepted (by decide), by simp [Opt3.Small, default3], supported_of (k := 3) (by decide) (by decide),
    default2_accepted (by decide), by simp [Opt2.Small, default2], supported_of (k := 3) (by decide) (by decide)⟩

/-! ## test2d with modes 1 and 3 -/

/-- A forward plan needs a documented value of `permute`, if there is a last remap. -/
theorem forwardCreate2_permute {c : Create2} (h : c.a.permute = 2) (hP : 0 < c.P) (s : Int × Int)
    (x : Forward2 ℝ × (Int × Int)) : forwardCreate2 (α := ℝ) c s ≠ some x := by
  have hpost : postflag2 c.P c.a = true := by
    unfold postflag2 allMax
    rw [List.any_eq_true]
    exact ⟨0, by simpa using hP, by simp [h]⟩
  have hn : newpermute2 c.a.permute = none := by rw [h]; rfl
  intro hx
  unfold forwardCreate2 at hx
  simp only [hpost, hn] at hx
  split_ifs at hx <;> simp [Option.bind_eq_some_iff] at hx

/-- **C60 (test2d, modes 1 and 3).**  test2d passes `permute = 2` to `FFT2d::setup` in modes 1 and 3.  On no rank
does `setup` have a defined result other than an error message: it uses a variable that has no value. -/
theorem C60_test2d_false {o : Opt2} {P : Nat} (ho : o.Accepted P) (hm : o.mode = 1 ∨ o.mode = 3) {a : Args2}
    (ha : o.args rnd P = some a) :
    a.permute = 2 ∧ ∀ (w : Int) (st : Settings) (r : Nat) (f : Fft2 ℝ), fft2Setup w P r a st ≠ some (.ok f) := by
  have h2 : a.permute = 2 := by
    unfold Opt2.args at ha
    simp only [Option.bind_eq_some_iff, Option.map_eq_some_iff] at ha
    obtain ⟨p, _, q, _, rfl⟩ := ha
    simp only
    rw [if_neg (by omega)]
  refine ⟨h2, ?_⟩
  intro w st r f hf
  unfold fft2Setup at hf
  split at hf
  · exact (nomatch hf)
  · simp only [bind, Option.bind_eq_some_iff] at hf
    obtain ⟨g, _, f', hf', _⟩ := hf
    unfold setupMain2 at hf'
    simp only [bind, Option.bind_eq_some_iff] at hf'
    obtain ⟨x, hx, _⟩ := hf'
    exact forwardCreate2_permute (c := ⟨w, P, r, a, st, g⟩) h2 ho.procs _ _ hx

/-- `test2d -m 1` on 2 ranks: the arguments exist, the checks of `setup` pass, and `setup` is undefined. -/
example : ∃ (o : Opt2) (a : Args2), o.Accepted 2 ∧ o.mode = 1 ∧ o.args rnd53 2 = some a ∧ a.permute = 2 := by
  refine ⟨{ default2 with mode := 1 }, ?_⟩
  have ho : ({ default2 with mode := 1 } : Opt2).Accepted 2 :=
    { default2_accepted (P := 2) (by decide) with mode := by decide }
  obtain ⟨p, h1, _⟩ := inGrid2_ok rounding53 ho
  obtain ⟨q, h3, _⟩ := outGrid2_ok ho
  refine ⟨_, ho, rfl, by unfold Opt2.args; rw [h1, h3]; rfl, ?_⟩
  rfl

end FftMpi
