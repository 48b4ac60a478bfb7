import Verif.RunSh
import Verif.PropsTimeRuns
import Verif.PropsDriverFArgs
import Verif.PropsDriverPyArgs

/-!
# C80: the commands of Run.sh run to the end
-/

noncomputable section

namespace FftMpi

open Driver DriverF DriverPy RunSh

/-! ## Specification -/

/-- Every rank accepts the command line with the values `o`; tuning, timing, output and validation are off. -/
def RunSh.Accepts3 (P : Nat) (read : Nat → Option (Out Cmd)) (o : Opt3) : Prop :=
  ∀ r < P, ∃ c : Cmd, read r = some (.ok c) ∧ c.opt3 r = o ∧ c.tuneflag = false ∧ c.tflag = false ∧ c.oflag = false ∧
    c.vflag = false
def RunSh.Accepts2 (P : Nat) (read : Nat → Option (Out Cmd)) (o : Opt2) : Prop :=
  ∀ r < P, ∃ c : Cmd, read r = some (.ok c) ∧ c.opt2 r = o ∧ c.tuneflag = false ∧ c.tflag = false ∧ c.oflag = false ∧
    c.vflag = false

/-- `setup` succeeds on all ranks, and every execution of `prog` with the memory that the program and the library allocate
runs to the end: no access outside an array, no exception, no deadlock. -/
def RunSh.Runs3 (P : Nat) (st : Settings) (a : Args3)
    (prog : Nat → Fft3 ℝ → (Nat → Nat → Junk) → (Nat → Nat → Junk) → List (Instr ℝ)) : Prop :=
  ∃ f : Nat → Fft3 ℝ, (∀ r < P, fft3Setup P r a st = some (.ok (f r))) ∧
    ∀ (e : Bool) (J J' : Nat → Nat → Nat → Junk) (m : Nat → LMem ℝ),
      (∀ r < P, accessible ((m r).ub 0) 0 (2 * (f r).fftsize) ∧ accessible (m r).sb 0 (f r).sendsize ∧
        accessible (m r).rb 0 (f r).recvsize) →
      ∃ m', Terminates e P (fun r => prog r (f r) (J r) (J' r)) m m'

/-- The same for two dimensions; `w` is the size of `FFT_SCALAR` in units of 8 bytes as in `fft2Setup`. -/
def RunSh.Runs2 (w : Int) (P : Nat) (st : Settings) (a : Args2)
    (prog : Nat → Fft2 ℝ → (Nat → Nat → Junk) → (Nat → Nat → Junk) → List (Instr ℝ)) : Prop :=
  ∃ f : Nat → Fft2 ℝ, (∀ r < P, fft2Setup w P r a st = some (.ok (f r))) ∧
    ∀ (e : Bool) (J J' : Nat → Nat → Nat → Junk) (m : Nat → LMem ℝ),
      (∀ r < P, accessible ((m r).ub 0) 0 (2 * (f r).fftsize) ∧ accessible (m r).sb 0 (f r).sendsize ∧
        accessible (m r).rb 0 (f r).recvsize) →
      ∃ m', Terminates e P (fun r => prog r (f r) (J r) (J' r)) m m'

/-- The command `c` runs to the end: its options are the defaults apart from the size of the grid and the number of passes,
and the program with these options runs to the end.  `rnd` is the rounding of double precision, `rnd1` that of single
precision; the library is built for double precision, the default of its Makefile. -/
def RunSh.Command.Ends (rnd rnd1 : ℝ → ℝ) (c : Command) : Prop :=
  let o3 : Opt3 := { default3 with nx := 64, ny := 64, nz := 64, nloop := 50 }
  let o2 : Opt2 := { default2 with nx := 128, ny := 128, nloop := 100 }
  match c.lang, c.three with
  | .f90, true => Accepts3 c.ranks (fun r => (optionsF true c.ranks r c.argv).map low) o3 ∧
      ∃ (a : Args3) (p : Nat × Nat × Nat), args3 rnd rnd1 o3 c.ranks = some a ∧ o3.inGrid rnd c.ranks = some p ∧
        Runs3 c.ranks o3.settings a fun r => run3F o3 r (box3F rnd1 p o3.nx o3.ny o3.nz r)
  | .f90, false => Accepts2 c.ranks (fun r => (optionsF false c.ranks r c.argv).map low) o2 ∧
      ∃ (a : Args2) (p : Nat × Nat), args2 rnd rnd1 o2 c.ranks = some a ∧ o2.inGrid rnd c.ranks = some p ∧
        Runs2 1 c.ranks o2.settings a fun r => run2F o2 r (box2F rnd1 p o2.nx o2.ny r)
  | .py, true => (∀ flt, Accepts3 c.ranks (fun r => optionsPy true flt c.ranks r c.argv) o3) ∧
      ∃ a : Args3, argsPy3 rnd o3 c.ranks = some a ∧ Runs3 c.ranks o3.settings a fun r => run3Py rnd o3 r (a.ins r)
  | .py, false => (∀ flt, Accepts2 c.ranks (fun r => optionsPy false flt c.ranks r c.argv) o2) ∧
      ∃ a : Args2, argsPy2 rnd o2 c.ranks = some a ∧ Runs2 1 c.ranks o2.settings a fun r => run2Py rnd o2 r (a.ins r)
  | _, true => (∀ neg, Accepts3 c.ranks (fun r => options true neg c.ranks r c.argv) o3) ∧
      ∃ a : Args3, o3.args rnd c.ranks = some a ∧ Runs3 c.ranks o3.settings a fun r => o3.run rnd r (a.ins r)
  | _, false => (∀ neg, Accepts2 c.ranks (fun r => options false neg c.ranks r c.argv) o2) ∧
      ∃ a : Args2, o2.args rnd c.ranks = some a ∧ Runs2 1 c.ranks o2.settings a fun r => o2.run rnd r (a.ins r)

/-! ## The boxes of test2d_f90 -/

theorem DriverF.box2F_eq {rnd1 : ℝ → ℝ} (R : Simple.Single rnd1) {np : Nat × Nat} {P n1 n2 : Nat} (h : np.1 * np.2 = P)
    (hP : 0 < P) (h1 : 2 ≤ n1 ∧ P * n1 ≤ 2 ^ 22) (h2 : 2 ≤ n2 ∧ P * n2 ≤ 2 ^ 22) {me : Nat} (hme : me < P) :
    fromOne2 (box2F rnd1 np n1 n2 me) = gridBox2 np n1 n2 me := by
  have p1 : np.1 ≤ P := Nat.le_of_dvd hP ⟨np.2, h.symm⟩
  have p2 : np.2 ≤ P := Nat.le_of_dvd hP ⟨np.1, by rw [← h, Nat.mul_comm]⟩
  obtain ⟨c1, c2⟩ := (gridCoords2_bij h hP).1 me hme
  have k1 : 4 * (np.1 * n1) ≤ 2 ^ 24 := by have := Nat.mul_le_mul_right n1 p1; omega
  have k2 : 4 * (np.2 * n2) ≤ 2 ^ 24 := by have := Nat.mul_le_mul_right n2 p2; omega
  have c1' : me % np.1 < np.1 := c1
  have c2' : me / np.1 < np.2 := c2
  unfold fromOne2 box2F gridBox2
  simp only [Simple.loF_eq R c1' h1.1 k1, Simple.hiF_eq R c1' h1.1 k1, Simple.loF_eq R c2' h2.1 k2,
    Simple.hiF_eq R c2' h2.1 k2, add_sub_cancel_right]
  rfl

/-- **C80 (boxes of test2d_f90).**  In modes 0 and 2, for supported sizes and at most `2^22` for the number of ranks times a
size, the arguments that test2d_f90 passes to `setup` are valid: although the boxes are computed in single precision, every
point of the grid has exactly one owner.  They are those that test2d.cpp passes. -/
theorem C80_args_f90_2d_partial {rnd rnd1 : ℝ → ℝ} (R : Rounding rnd) (R1 : Simple.Single rnd1) {o : Opt2} {P : Nat}
    (ho : o.Accepted P) (hx : Supported o.nx ∧ P * o.nx ≤ 2 ^ 22) (hy : Supported o.ny ∧ P * o.ny ≤ 2 ^ 22)
    (hm : o.mode = 0 ∨ o.mode = 2) :
    ∃ (a : Args2) (p : Nat × Nat), args2 rnd rnd1 o P = some a ∧ o.inGrid rnd P = some p ∧ a.Valid P ∧
      (∀ r < P, a.ins r = fromOne2 (box2F rnd1 p o.nx o.ny r)) ∧
      ∃ a', o.args rnd P = some a' ∧ ∀ r < P, a.ins r = a'.ins r ∧ a.outs r = a'.outs r := by
  have hs : o.Small P := by
    refine ⟨lt_of_le_of_lt hx.2 (by norm_num), lt_of_le_of_lt hy.2 (by norm_num)⟩
  obtain ⟨a', ha', hv, _, _⟩ := C60_args_valid_2d_partial R ho hs hx.1 hy.1 hm
  obtain ⟨p, h1, h2⟩ := inGrid2_ok R ho
  obtain ⟨q, h3, h4⟩ := outGrid2_ok ho
  have e' := ha'
  unfold Opt2.args at e'
  rw [h1, h3] at e'
  simp only [Option.bind_some, Option.map_some, Option.some.injEq] at e'
  subst e'
  have ei : ∀ r < P, fromOne2 (box2F rnd1 p o.nx o.ny r) = box2 rnd p o.nx o.ny r := fun r hr => by
    rw [box2F_eq R1 h2 ho.procs ⟨hx.1.1, hx.2⟩ ⟨hy.1.1, hy.2⟩ hr,
      box2_eq R h2 ho.procs ⟨ho.nx.1, hs.1⟩ ⟨ho.ny.1, hs.2⟩ hr]
  have eo : ∀ r < P, fromOne2 (box2F rnd1 q o.nx o.ny r) = box2 rnd q o.nx o.ny r := fun r hr => by
    rw [box2F_eq R1 h4 ho.procs ⟨hx.1.1, hx.2⟩ ⟨hy.1.1, hy.2⟩ hr,
      box2_eq R h4 ho.procs ⟨ho.nx.1, hs.1⟩ ⟨ho.ny.1, hs.2⟩ hr]
  have tile : ∀ {b b' : Nat → Box2}, (∀ r < P, b r = b' r) → Tiles2 P b' o.nx o.ny → Tiles2 P b o.nx o.ny := by
    intro b b' e T
    refine ⟨?_, ?_, ?_⟩
    · intro a ha i j hh
      rw [e a ha] at hh
      exact T.inside a ha i j hh
    · intro i j hi hj
      obtain ⟨a, ha, hh⟩ := T.owner i j hi hj
      exact ⟨a, ha, by rw [e a ha]; exact hh⟩
    · intro a ha b hb i j h1 h2
      rw [e a ha] at h1
      rw [e b hb] at h2
      exact T.disjoint a ha b hb i j h1 h2
  refine ⟨_, p, by unfold args2; rw [h1, h3]; rfl, h1, ?_, fun r _ => rfl, _, ha', fun r hr => ⟨ei r hr, eo r hr⟩⟩
  exact {
    procs := hv.procs
    fast := hv.fast
    slow := hv.slow
    factors := hv.factors
    tilesIn := tile ei hv.tilesIn
    tilesOut := tile eo hv.tilesOut
    properIn := fun r hr => by
      show (fromOne2 (box2F rnd1 p o.nx o.ny r)).Proper ∧ (fromOne2 (box2F rnd1 p o.nx o.ny r)).Within o.nx o.ny
      rw [ei r hr]
      exact hv.properIn r hr
    properOut := fun r hr => by
      show (fromOne2 (box2F rnd1 q o.nx o.ny r)).Proper
      rw [eo r hr]
      exact hv.properOut r hr
    permute := hv.permute
    round := hv.round }

/-! ## Runs in two dimensions with any grids -/

/-- The array is filled and the loop runs to the end. -/
theorem RunSh.runs2_of {w : Int} {P : Nat} {a : Args2} (hv : a.Valid P) {st : Settings} (hst : st.Valid2 w) (mode nloop : Nat)
    (rflag : Bool) {init : Nat → Mem ℝ → Option (Mem ℝ)} {s : Nat → Int → ℝ}
    (hf : ∀ r < P, Fills (a.ins r).count (init r) (s r)) :
    Runs2 w P st a fun r f J J' => .loc (onWork (init r)) :: loop2 f rflag mode J J' nloop := by
  obtain ⟨f, S⟩ := setUp2_exists hv hst
  refine ⟨f, S.result, ?_⟩
  intro e J J' m hmem
  have hb : Bufs2 P f 0 m := ⟨fun r hr => (hmem r hr).1, fun r hr => (hmem r hr).2.1, fun r hr => (hmem r hr).2.2⟩
  have hs : ∀ r < P, 0 ≤ (a.ins r).count ∧ (a.ins r).count ≤ fsz2 f r := by
    obtain ⟨c, rfl, rfl, rfl, _, _, R⟩ := S.ready
    exact fun r hr => ⟨by rw [← Box2.lift_count]; exact count_nonneg _, R.size_ins hr⟩
  obtain ⟨m1, s1, _⟩ := fillStep e (size := fsz2 f) (m := m) hs hb.data hf
  obtain ⟨m2, s2⟩ := S.able_loop (e := e) mode rflag J J' nloop m1 (hb.congr s1.dom)
  exact ⟨m2, ((s1.append s2).congr fun r _ => rfl).ok.terminates⟩

theorem RunSh.valid2 {o : Opt2} {P : Nat} (ho : o.Accepted P) {w : Int} (hw : o.pflag = 2 → w = 1) :
    o.settings.Valid2 w := by
  unfold Settings.Valid2 FlagOk2 Opt2.settings
  have := ho.pflag
  tauto

/-- **C80 (test2d).**  In modes 0 and 2, for all supported grids, numbers of ranks, data and processor grids, `setup` succeeds
and the program runs to the end.  Missing: modes 1 and 3, in which it does not (`C60_test2d_false`), and single precision
with `-p memcpy`, the default (C40). -/
theorem C80_test2d_partial {rnd : ℝ → ℝ} (R : Rounding rnd) {o : Opt2} {P : Nat} (ho : o.Accepted P) (hs : o.Small P)
    {w : Int} (hw : o.pflag = 2 → w = 1) (hx : Supported o.nx) (hy : Supported o.ny) (hm : o.mode = 0 ∨ o.mode = 2) :
    ∃ a : Args2, o.args rnd P = some a ∧ Runs2 w P o.settings a fun r => o.run rnd r (a.ins r) := by
  obtain ⟨a, ha, hv, _⟩ := C60_args_valid_2d_partial R ho hs hx hy hm
  refine ⟨a, ha, runs2_of hv (valid2 ho hw) o.mode o.nloop o.rflag (s := fun r => o.start rnd r (a.ins r)) fun r hr => ?_⟩
  rw [← nfft2_eq (hv.properIn r hr).1]
  exact Opt2.initialize_fills rnd (hv.properIn r hr).1 (seedOk2 ho hr)

/-- **C80 (test2d.py).**  The same for test2d.py. -/
theorem C80_py_2d_partial {rnd : ℝ → ℝ} (R : Rounding rnd) {o : Opt2} {P : Nat} (ho : o.Accepted P) (hs : o.Small P)
    {w : Int} (hw : o.pflag = 2 → w = 1) (hx : Supported o.nx) (hy : Supported o.ny) (hm : o.mode = 0 ∨ o.mode = 2) :
    ∃ a : Args2, argsPy2 rnd o P = some a ∧ Runs2 w P o.settings a fun r => run2Py rnd o r (a.ins r) := by
  obtain ⟨p, h1, h2, _⟩ := C66_args_2d R ho
  have ho' : ({ o with pin := p } : Opt2).Accepted P := { ho with pin := Or.inr h1 }
  obtain ⟨a, ha, hv, _⟩ := C60_args_valid_2d_partial R ho' hs hx hy hm
  refine ⟨a, by rw [h2]; exact ha, runs2_of hv (valid2 ho hw) o.mode o.nloop o.rflag
    (s := fun r => o.start rnd r (a.ins r)) fun r hr => ?_⟩
  have e : initializePy2 rnd o r (a.ins r) = o.initialize rnd r (a.ins r) := funext fun w => (C66_data_2d ho hr _ w).1
  rw [e, ← nfft2_eq (hv.properIn r hr).1]
  exact Opt2.initialize_fills rnd (hv.properIn r hr).1 (seedOk2 ho hr)

/-- **C80 (test2d_f90).**  The same for test2d_f90 with zero or random data, if the number of ranks times a size is at most
`2^22`.  Here the settings are those of the command line; that `fft2d_set` gets the words without a terminating NUL is C59.
Missing further: `-i step` and `-i index`, which write outside the array or leave it unset (C65). -/
theorem C80_f90_2d_partial {rnd rnd1 : ℝ → ℝ} (R : Rounding rnd) (R1 : Simple.Single rnd1) {o : Opt2} {P : Nat}
    (ho : o.Accepted P) (hx : Supported o.nx ∧ P * o.nx ≤ 2 ^ 22) (hy : Supported o.ny ∧ P * o.ny ≤ 2 ^ 22)
    (hi : Plain0 o.iflag) {w : Int} (hw : o.pflag = 2 → w = 1) (hm : o.mode = 0 ∨ o.mode = 2) :
    ∃ (a : Args2) (p : Nat × Nat), args2 rnd rnd1 o P = some a ∧ o.inGrid rnd P = some p ∧
      Runs2 w P o.settings a fun r => run2F o r (box2F rnd1 p o.nx o.ny r) := by
  obtain ⟨a, p, h1, h2, hv, h3, _⟩ := C80_args_f90_2d_partial R R1 ho hx hy hm
  refine ⟨a, p, h1, h2, runs2_of hv (valid2 ho hw) o.mode o.nloop o.rflag (s := fun r => startF o.iflag r) fun r hr => ?_⟩
  have hn : nfft2 (box2F rnd1 p o.nx o.ny r) = (a.ins r).count := by
    rw [← nfft2_eq (hv.properIn r hr).1, h3 r hr]
    unfold nfft2 Box2.isize Box2.jsize fromOne2
    simp
  rw [← hn]
  exact init2_fills hi (seedOk2 ho hr)

/-! ## The command lines -/

/-- The words of a command for three dimensions and for two. -/
def RunSh.argv3 (name : String) : List String := [name, "-g", "64", "64", "64", "-n", "50"]
def RunSh.argv2 (name : String) : List String := [name, "-g", "128", "128", "-n", "100"]

/-- The variables that the command lines set, in three dimensions and in two. -/
def RunSh.c3 : Cmd := { Cmd.default with nx := 64, ny := 64, nz := 64, nloop := 50 }
def RunSh.c2 : Cmd := { Cmd.default with nx := 128, ny := 128, nz := 0, nloop := 100 }

theorem RunSh.c3_opt (r : Nat) : c3.opt3 r = { default3 with nx := 64, ny := 64, nz := 64, nloop := 50 } ∧
    c3.tuneflag = false ∧ c3.tflag = false ∧ c3.oflag = false ∧ c3.vflag = false := ⟨rfl, rfl, rfl, rfl, rfl⟩

theorem RunSh.c2_opt (r : Nat) : c2.opt2 r = { default2 with nx := 128, ny := 128, nloop := 100 } ∧
    c2.tuneflag = false ∧ c2.tflag = false ∧ c2.oflag = false ∧ c2.vflag = false := ⟨rfl, rfl, rfl, rfl, rfl⟩

theorem RunSh.options3 (neg : String → Bool) {P : Nat} (hP : 0 < P) (hP' : P < 2 ^ 31) (r : Nat) (name : String) :
    options true neg P r (argv3 name) = some (.ok c3) := by
  have s1 : argStep true neg r (argv3 name) 1 Cmd.default =
      some (.ok (5, { Cmd.default with nx := (64 : Nat), ny := (64 : Nat), nz := (64 : Nat) })) :=
    (word_g rfl).trans (grid3_step (by simp [argv3]) rfl rfl rfl (by decide) (by decide) (by decide))
  have s2 : argStep true neg r (argv3 name) 5 { Cmd.default with nx := (64 : Nat), ny := (64 : Nat), nz := (64 : Nat) } =
      some (.ok (7, { Cmd.default with nx := (64 : Nat), ny := (64 : Nat), nz := (64 : Nat), nloop := (50 : Nat) })) :=
    (word_n rfl).trans (one_step (by simp [argv3]) rfl (by decide))
  refine options_of (o := { Cmd.default with nx := (64 : Nat), ny := (64 : Nat), nz := (64 : Nat), nloop := (50 : Nat) }) ?_ ?_
  · show argLoop true neg r (argv3 name) 8 1 Cmd.default = _
    rw [argLoop_step (by simp [argv3]) s1, argLoop_step (by simp [argv3]) s2, argLoop_end (by simp [argv3])]
  · exact argCheck_of (by decide) (by decide) (fun _ => by decide) (gridCheck3_of (p := (0, 0, 0)) (Or.inl rfl) hP hP')
      (gridCheck3_of (p := (0, 0, 0)) (Or.inl rfl) hP hP')
      ⟨by decide, by decide, by decide, by decide, by decide, by decide⟩

theorem RunSh.options2 (neg : String → Bool) {P : Nat} (hP : 0 < P) (hP' : P < 2 ^ 31) (r : Nat) (name : String) :
    options false neg P r (argv2 name) = some (.ok c2) := by
  have s1 : argStep false neg r (argv2 name) 1 Cmd.default =
      some (.ok (4, { Cmd.default with nx := (128 : Nat), ny := (128 : Nat), nz := 0 })) :=
    (word_g rfl).trans (grid2_step (by simp [argv2]) rfl rfl (by decide) (by decide))
  have s2 : argStep false neg r (argv2 name) 4 { Cmd.default with nx := (128 : Nat), ny := (128 : Nat), nz := 0 } =
      some (.ok (6, { Cmd.default with nx := (128 : Nat), ny := (128 : Nat), nz := 0, nloop := (100 : Nat) })) :=
    (word_n rfl).trans (one_step (by simp [argv2]) rfl (by decide))
  refine options_of (o := { Cmd.default with nx := (128 : Nat), ny := (128 : Nat), nz := 0, nloop := (100 : Nat) }) ?_ ?_
  · show argLoop false neg r (argv2 name) 7 1 Cmd.default = _
    rw [argLoop_step (by simp [argv2]) s1, argLoop_step (by simp [argv2]) s2, argLoop_end (by simp [argv2])]
  · exact argCheck_of (by decide) (by decide) (fun h => (nomatch h)) (gridCheck2_of (p := (0, 0)) (Or.inl rfl) hP hP')
      (gridCheck2_of (p := (0, 0)) (Or.inl rfl) hP hP')
      ⟨by decide, by decide, by decide, by decide, by decide, by decide⟩

/-- An index with a word is below the length. -/
theorem RunSh.index_lt {l : List String} {i : Nat} {w : String} (h : l[i]? = some w) : i < l.length := by
  by_contra hi
  rw [List.getElem?_eq_none (by omega)] at h
  cases h

theorem RunSh.readF3 (neg : String → Bool) : DriverF.Readable true neg (argv3 "test3d_f90") where
  blank := by decide +kernel
  grid := by
    intro i w s hw hw' hs
    have key : ∀ i < 7, ∀ w ∈ (argv3 "test3d_f90")[i]?, (w = "-g" ∨ w = "-pin" ∨ w = "-pout") →
        (∀ s ∈ (argv3 "test3d_f90")[i + 1]?, s.length ≤ 10 ∧ (readI s).isSome = true) ∧
        (∀ s ∈ (argv3 "test3d_f90")[i + 2]?, s.length ≤ 10 ∧ (readI s).isSome = true) ∧
        ∀ s ∈ (argv3 "test3d_f90")[i + 3]?, s.length ≤ 10 ∧ (readI s).isSome = true := by decide +kernel
    obtain ⟨k1, k2, k3⟩ := key i (index_lt hw) w hw hw'
    rcases hs with hs | hs | ⟨_, hs⟩
    · exact k1 s hs
    · exact k2 s hs
    · exact k3 s hs
  one := by
    intro i w s hw hw' hs
    have key : ∀ i < 7, ∀ w ∈ (argv3 "test3d_f90")[i]?, (w = "-n" ∨ w = "-m" ∨ w = "-i") →
        ∀ s ∈ (argv3 "test3d_f90")[i + 1]?, s.length ≤ 10 ∧ (readI s).isSome = true := by decide +kernel
    exact key i (index_lt hw) w hw hw' s hs
  tune := by
    intro i s hw hs
    have key : ∀ i < 7, (argv3 "test3d_f90")[i]? ≠ some "-tune" := by decide +kernel
    exact absurd hw (key i (index_lt hw))
  tmax := by
    intro i s hw hs
    have key : ∀ i < 7, (argv3 "test3d_f90")[i]? ≠ some "-tune" := by decide +kernel
    exact absurd hw (key i (index_lt hw))

theorem RunSh.readF2 (neg : String → Bool) : DriverF.Readable false neg (argv2 "test2d_f90") where
  blank := by decide +kernel
  grid := by
    intro i w s hw hw' hs
    have key : ∀ i < 6, ∀ w ∈ (argv2 "test2d_f90")[i]?, (w = "-g" ∨ w = "-pin" ∨ w = "-pout") →
        (∀ s ∈ (argv2 "test2d_f90")[i + 1]?, s.length ≤ 10 ∧ (readI s).isSome = true) ∧
        ∀ s ∈ (argv2 "test2d_f90")[i + 2]?, s.length ≤ 10 ∧ (readI s).isSome = true := by decide +kernel
    obtain ⟨k1, k2⟩ := key i (index_lt hw) w hw hw'
    rcases hs with hs | hs | ⟨h, _⟩
    · exact k1 s hs
    · exact k2 s hs
    · cases h
  one := by
    intro i w s hw hw' hs
    have key : ∀ i < 6, ∀ w ∈ (argv2 "test2d_f90")[i]?, (w = "-n" ∨ w = "-m" ∨ w = "-i") →
        ∀ s ∈ (argv2 "test2d_f90")[i + 1]?, s.length ≤ 10 ∧ (readI s).isSome = true := by decide +kernel
    exact key i (index_lt hw) w hw hw' s hs
  tune := by
    intro i s hw hs
    have key : ∀ i < 6, (argv2 "test2d_f90")[i]? ≠ some "-tune" := by decide +kernel
    exact absurd hw (key i (index_lt hw))
  tmax := by
    intro i s hw hs
    have key : ∀ i < 6, (argv2 "test2d_f90")[i]? ≠ some "-tune" := by decide +kernel
    exact absurd hw (key i (index_lt hw))

theorem RunSh.optionsF2 {P : Nat} (hP : 0 < P) (hP' : P < 2 ^ 31) (r : Nat) :
    (optionsF false P r (argv2 "test2d_f90")).map low = some (.ok c2) := by
  have hl := loopF_low (me := r) (readF2 fun _ => false) ((argv2 "test2d_f90").length + 1) 1 Cmd1.default
  obtain ⟨h1, h2⟩ := options_ok (options2 (fun _ => false) hP hP' r "test2d_f90")
  rw [show Cmd1.default.toCmd = Cmd.default from rfl, h1] at hl
  unfold optionsF
  rcases hf : argLoopF false r (argv2 "test2d_f90") ((argv2 "test2d_f90").length + 1) 1 Cmd1.default with _ | (e | o)
  · rw [hf] at hl; cases hl
  · rw [hf] at hl; cases hl
  · rw [hf] at hl
    have e : o.toCmd = c2 := by
      simpa only [Option.map_some, low, Option.some.injEq, Out.ok.injEq] using hl
    have hx : o.nx = 128 := congrArg Cmd.nx e
    have hy : o.ny = 128 := congrArg Cmd.ny e
    have g1 : gridCheck false P o.inpx o.inpy o.inpz = some none := by
      rw [show o.inpx = 0 from congrArg Cmd.inpx e, show o.inpy = 0 from congrArg Cmd.inpy e,
        show o.inpz = 0 from congrArg Cmd.inpz e]
      exact gridCheck2_of (p := (0, 0)) (Or.inl rfl) hP hP'
    have g2 : gridCheck false P o.outpx o.outpy o.outpz = some none := by
      rw [show o.outpx = 0 from congrArg Cmd.outpx e, show o.outpy = 0 from congrArg Cmd.outpy e,
        show o.outpz = 0 from congrArg Cmd.outpz e]
      exact gridCheck2_of (p := (0, 0)) (Or.inl rfl) hP hP'
    have hr : runCheck true o.toCmd = none := by
      rw [e]
      exact runCheck_of ⟨by decide, by decide, by decide, by decide, by decide, by decide⟩
    dsimp only
    rw [if_neg (by simp [hx, hy]), g1, Option.bind_some, g2, Option.map_some, hr]
    simp only [Option.map_some, low, e]

theorem RunSh.numPy {me : Nat} (h : me < 2 ^ 30) : ∀ s ∈ ["64", "50", "128", "100"], DriverPy.Number me s := by
  intro s hs
  simp only [List.mem_cons, List.not_mem_nil, or_false] at hs
  rcases hs with rfl | rfl | rfl | rfl
  · exact ⟨64, by decide +kernel, by decide, by omega⟩
  · exact ⟨50, by decide +kernel, by decide, by omega⟩
  · exact ⟨128, by decide +kernel, by decide, by omega⟩
  · exact ⟨100, by decide +kernel, by decide, by omega⟩

theorem RunSh.readPy3 (flt : String → Option Bool) (neg : String → Bool) {me : Nat} (h : me < 2 ^ 30) :
    DriverPy.Readable true flt neg me (argv3 "test3d.py") := by
  constructor
  · intro i w s hw hw' hs
    have key : ∀ i < 7, ∀ w ∈ (argv3 "test3d.py")[i]?, (w = "-g" ∨ w = "-pin" ∨ w = "-pout") →
        (∀ s ∈ (argv3 "test3d.py")[i + 1]?, s ∈ ["64", "50", "128", "100"]) ∧
        (∀ s ∈ (argv3 "test3d.py")[i + 2]?, s ∈ ["64", "50", "128", "100"]) ∧
        ∀ s ∈ (argv3 "test3d.py")[i + 3]?, s ∈ ["64", "50", "128", "100"] := by decide +kernel
    obtain ⟨k1, k2, k3⟩ := key i (index_lt hw) w hw hw'
    rcases hs with hs | hs | ⟨_, hs⟩
    · exact numPy h s (k1 s hs)
    · exact numPy h s (k2 s hs)
    · exact numPy h s (k3 s hs)
  · intro i w s hw hw' hs
    have key : ∀ i < 7, ∀ w ∈ (argv3 "test3d.py")[i]?, (w = "-n" ∨ w = "-m") →
        ∀ s ∈ (argv3 "test3d.py")[i + 1]?, s ∈ ["64", "50", "128", "100"] := by decide +kernel
    exact numPy h s (key i (index_lt hw) w hw hw' s hs)
  · intro i s hw hs
    have key : ∀ i < 7, (argv3 "test3d.py")[i]? ≠ some "-i" := by decide +kernel
    exact absurd hw (key i (index_lt hw))
  · intro i s hw hs
    have key : ∀ i < 7, (argv3 "test3d.py")[i]? ≠ some "-tune" := by decide +kernel
    exact absurd hw (key i (index_lt hw))
  · intro i s hw hs
    have key : ∀ i < 7, (argv3 "test3d.py")[i]? ≠ some "-tune" := by decide +kernel
    exact absurd hw (key i (index_lt hw))

theorem RunSh.readPy2 (flt : String → Option Bool) (neg : String → Bool) {me : Nat} (h : me < 2 ^ 30) :
    DriverPy.Readable false flt neg me (argv2 "test2d.py") := by
  constructor
  · intro i w s hw hw' hs
    have key : ∀ i < 6, ∀ w ∈ (argv2 "test2d.py")[i]?, (w = "-g" ∨ w = "-pin" ∨ w = "-pout") →
        (∀ s ∈ (argv2 "test2d.py")[i + 1]?, s ∈ ["64", "50", "128", "100"]) ∧
        ∀ s ∈ (argv2 "test2d.py")[i + 2]?, s ∈ ["64", "50", "128", "100"] := by decide +kernel
    obtain ⟨k1, k2⟩ := key i (index_lt hw) w hw hw'
    rcases hs with hs | hs | ⟨h', _⟩
    · exact numPy h s (k1 s hs)
    · exact numPy h s (k2 s hs)
    · cases h'
  · intro i w s hw hw' hs
    have key : ∀ i < 6, ∀ w ∈ (argv2 "test2d.py")[i]?, (w = "-n" ∨ w = "-m") →
        ∀ s ∈ (argv2 "test2d.py")[i + 1]?, s ∈ ["64", "50", "128", "100"] := by decide +kernel
    exact numPy h s (key i (index_lt hw) w hw hw' s hs)
  · intro i s hw hs
    have key : ∀ i < 6, (argv2 "test2d.py")[i]? ≠ some "-i" := by decide +kernel
    exact absurd hw (key i (index_lt hw))
  · intro i s hw hs
    have key : ∀ i < 6, (argv2 "test2d.py")[i]? ≠ some "-tune" := by decide +kernel
    exact absurd hw (key i (index_lt hw))
  · intro i s hw hs
    have key : ∀ i < 6, (argv2 "test2d.py")[i]? ≠ some "-tune" := by decide +kernel
    exact absurd hw (key i (index_lt hw))

/-! ## The script -/

/-- **C80 (three dimensions).**  With the words of Run.sh, on every number of ranks up to `2^15`, the programs in C++, C,
Fortran and Python for three dimensions run to the end. -/
theorem C80_commands_3d_partial {rnd rnd1 : ℝ → ℝ} (R : Rounding rnd) (R1 : Simple.Single rnd1) {P : Nat} (hP : 0 < P)
    (hP' : P ≤ 2 ^ 15) :
    (∀ name, Command.Ends rnd rnd1 ⟨.cpp, true, P, argv3 name⟩ ∧ Command.Ends rnd rnd1 ⟨.c, true, P, argv3 name⟩) ∧
    Command.Ends rnd rnd1 ⟨.f90, true, P, argv3 "test3d_f90"⟩ ∧
    Command.Ends rnd rnd1 ⟨.py, true, P, argv3 "test3d.py"⟩ := by
  have ho : ({ default3 with nx := 64, ny := 64, nz := 64, nloop := 50 } : Opt3).Accepted P :=
    { default3_accepted hP with nx := by decide, ny := by decide, nz := by decide, seed := fun n h => (nomatch h) }
  have hs : ({ default3 with nx := 64, ny := 64, nz := 64, nloop := 50 } : Opt3).Small P := by
    unfold Opt3.Small
    refine ⟨?_, ?_, ?_⟩ <;> · dsimp only; omega
  have h64 : Supported 64 := supported_of (k := 6) (by decide) (by decide)
  have hb : P * 64 ≤ 2 ^ 22 := by omega
  have cpp : ∀ name l, l = .cpp ∨ l = .c → Command.Ends rnd rnd1 ⟨l, true, P, argv3 name⟩ := by
    intro name l hl
    obtain ⟨a, f, h1, h2, h3⟩ := C61_test3d R ho hs h64 h64 h64 rfl rfl
    have acc : ∀ neg, Accepts3 P (fun r => options true neg P r (argv3 name))
        { default3 with nx := 64, ny := 64, nz := 64, nloop := 50 } :=
      fun neg r _ => ⟨c3, options3 neg hP (by omega) r name, c3_opt r⟩
    have run : Runs3 P _ a _ := ⟨f, h2, fun e J J' m hm => by
      obtain ⟨m', t, _⟩ := h3 e J J' m hm
      exact ⟨m', t⟩⟩
    rcases hl with rfl | rfl
    · exact ⟨acc, a, h1, run⟩
    · exact ⟨acc, a, h1, run⟩
  refine ⟨fun name => ⟨cpp name _ (Or.inl rfl), cpp name _ (Or.inr rfl)⟩, ?_, ?_⟩
  · obtain ⟨a, p, f, h1, h2, h3, h4⟩ := C65_test3d_partial R R1 ho ⟨h64, hb⟩ ⟨h64, hb⟩ ⟨h64, hb⟩ (Or.inl rfl)
      (fun n h => (nomatch h)) rfl rfl
    refine ⟨fun r _ => ⟨c3, ?_, c3_opt r⟩, a, p, h1, h2, f, h3, fun e J J' m hm => ?_⟩
    · exact (C65_options (readF3 fun _ => false)).trans (options3 _ hP (by omega) r _)
    · obtain ⟨m', _, t, _⟩ := h4 e J J' m hm
      exact ⟨m', t⟩
  · obtain ⟨a, f, h1, h2, h3⟩ := C66_test3d_partial R ho hs h64 h64 h64 rfl rfl
    refine ⟨fun flt r hr => ⟨c3, ?_, c3_opt r⟩, a, h1, f, h2, fun e J J' m hm => ?_⟩
    · exact C66_accepts_partial (readPy3 flt (fun _ => false) (lt_of_lt_of_le hr (by dsimp only; omega))) (options3 _ hP (by omega) r _) (by decide)
        fun _ => ⟨Or.inl rfl, Or.inl rfl⟩
    · obtain ⟨m', t, _⟩ := h3 e J J' m hm
      exact ⟨m', t⟩

/-- **C80 (two dimensions).**  The same for two dimensions. -/
theorem C80_commands_2d_partial {rnd rnd1 : ℝ → ℝ} (R : Rounding rnd) (R1 : Simple.Single rnd1) {P : Nat} (hP : 0 < P)
    (hP' : P ≤ 2 ^ 15) :
    (∀ name, Command.Ends rnd rnd1 ⟨.cpp, false, P, argv2 name⟩ ∧ Command.Ends rnd rnd1 ⟨.c, false, P, argv2 name⟩) ∧
    Command.Ends rnd rnd1 ⟨.f90, false, P, argv2 "test2d_f90"⟩ ∧
    Command.Ends rnd rnd1 ⟨.py, false, P, argv2 "test2d.py"⟩ := by
  have ho : ({ default2 with nx := 128, ny := 128, nloop := 100 } : Opt2).Accepted P :=
    { default2_accepted hP with nx := by decide, ny := by decide, seed := fun n h => (nomatch h) }
  have hs : ({ default2 with nx := 128, ny := 128, nloop := 100 } : Opt2).Small P := by
    unfold Opt2.Small
    refine ⟨?_, ?_⟩ <;> · dsimp only; omega
  have h128 : Supported 128 := supported_of (k := 7) (by decide) (by decide)
  have hb : P * 128 ≤ 2 ^ 22 := by omega
  have cpp : ∀ name l, l = .cpp ∨ l = .c → Command.Ends rnd rnd1 ⟨l, false, P, argv2 name⟩ := by
    intro name l hl
    have acc : ∀ neg, Accepts2 P (fun r => options false neg P r (argv2 name))
        { default2 with nx := 128, ny := 128, nloop := 100 } :=
      fun neg r _ => ⟨c2, options2 neg hP (by omega) r name, c2_opt r⟩
    have run := C80_test2d_partial R ho hs (w := 1) (fun _ => rfl) h128 h128 (Or.inl rfl)
    rcases hl with rfl | rfl
    · exact ⟨acc, run⟩
    · exact ⟨acc, run⟩
  refine ⟨fun name => ⟨cpp name _ (Or.inl rfl), cpp name _ (Or.inr rfl)⟩, ?_, ?_⟩
  · refine ⟨fun r _ => ⟨c2, ?_, c2_opt r⟩,
      C80_f90_2d_partial R R1 ho ⟨h128, hb⟩ ⟨h128, hb⟩ (Or.inl rfl) (fun _ => rfl) (Or.inl rfl)⟩
    exact optionsF2 hP (by omega) r
  · refine ⟨fun flt r hr => ⟨c2, ?_, c2_opt r⟩,
      C80_py_2d_partial R ho hs (fun _ => rfl) h128 h128 (Or.inl rfl)⟩
    exact C66_accepts_partial (readPy2 flt (fun _ => false) (lt_of_lt_of_le hr (by dsimp only; omega))) (options2 _ hP (by omega) r _) (by decide)
      fun h => (nomatch h)

/-- **C80.**  Every command of Run.sh runs to the end, on one rank and on eight.  Missing: the two commands before it that
build the programs, and what `fft3d_set` and `fft2d_set` do with words of Fortran without a terminating NUL (C59); here the
settings are those of the command line. -/
theorem C80_script_partial {rnd rnd1 : ℝ → ℝ} (R : Rounding rnd) (R1 : Simple.Single rnd1) :
    ∀ c ∈ script, c.Ends rnd rnd1 := by
  have t1 := C80_commands_3d_partial R R1 (P := 1) (by decide) (by decide)
  have t8 := C80_commands_3d_partial R R1 (P := 8) (by decide) (by decide)
  have d1 := C80_commands_2d_partial R R1 (P := 1) (by decide) (by decide)
  have d8 := C80_commands_2d_partial R R1 (P := 8) (by decide) (by decide)
  intro c hc
  simp only [script, List.mem_cons, List.not_mem_nil, or_false] at hc
  rcases hc with rfl | rfl | rfl | rfl | rfl | rfl | rfl | rfl | rfl | rfl | rfl | rfl | rfl | rfl | rfl | rfl
  · exact (t1.1 _).1
  · exact (d1.1 _).1
  · exact (t1.1 _).2
  · exact (d1.1 _).2
  · exact t1.2.1
  · exact d1.2.1
  · exact t1.2.2
  · exact d1.2.2
  · exact (t8.1 _).1
  · exact (d8.1 _).1
  · exact (t8.1 _).2
  · exact (d8.1 _).2
  · exact t8.2.1
  · exact d8.2.1
  · exact t8.2.2
  · exact d8.2.2

/-- Rounding to 53 and to 24 binary digits meets the hypotheses. -/
example : ∀ c ∈ script, c.Ends rnd53 Simple.rnd24 := C80_script_partial rounding53 Simple.single24

/-- The hypotheses of the theorems for two dimensions, with different processor grids, random data and 6 ranks. -/
example : let o : Opt2 := { default2 with nx := 60, pin := (2, 3), pout := (6, 1), iflag := .random 1, nloop := 10, mode := 2 }
    o.Accepted 6 ∧ o.Small 6 ∧ (Supported o.nx ∧ 6 * o.nx ≤ 2 ^ 22) ∧ (Supported o.ny ∧ 6 * o.ny ≤ 2 ^ 22) ∧
      Plain0 o.iflag ∧ o.mode = 2 :=
  ⟨{ default2_accepted (P := 6) (by decide) with
      nx := by decide
      pin := Or.inr rfl
      pout := Or.inr rfl
      mode := by decide
      seed := by
        intro n hn r hr
        cases hn
        omega }, by simp [Opt2.Small, default2], ⟨supported_of (k := 3) (by decide) (by decide), by decide⟩,
    ⟨supported_of (k := 3) (by decide) (by decide), by decide⟩, Or.inr ⟨1, rfl⟩, rfl⟩

end FftMpi
