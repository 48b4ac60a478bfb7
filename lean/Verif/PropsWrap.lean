import Verif.Wrap
import Mathlib.Tactic.Linarith
import Mathlib.Tactic.NormNum

/-!
# Properties of the C and Fortran interfaces: C36, C37
-/

namespace FftMpi

/-! ## C36: set and get

doc/api_setup.txt:316-322 documents the six keywords of `set`.  doc/api_stats.txt:25-45 lists the variables that
"can be accessed" with the get functions (105-106). -/

/-- The settings a caller of `fft3d_set` or `fft2d_set` can change. -/
inductive Setting where
  | collective | exchange | packflag | memoryflag | scaled | remaponly
deriving DecidableEq

/-- The documented keyword of each setting, doc/api_setup.txt:316-322. -/
def Setting.keyword : Setting → String
  | .collective => "collective"
  | .exchange => "exchange"
  | .packflag => "pack"
  | .memoryflag => "memory"
  | .scaled => "scale"
  | .remaponly => "remaponly"

namespace Pub3

/-- The value of a setting. -/
def setting (f : Pub3) : Setting → Int
  | .collective => f.collective
  | .exchange => f.exchange
  | .packflag => f.packflag
  | .memoryflag => f.memoryflag
  | .scaled => f.scaled
  | .remaponly => f.remaponly

/-- All members but the settings. -/
def others (f : Pub3) : Pub3 :=
  { f with collective := 0, exchange := 0, packflag := 0, memoryflag := 0, scaled := 0, remaponly := 0 }

/-- The readable integer variables with their names. -/
def intVars : List (String × (Pub3 → Option Int)) :=
  [("collective", fun f => some f.collective), ("exchange", fun f => some f.exchange), ("pack", fun f => some f.packflag),
   ("npfast1", npfast1),
   ("npfast2", npfast2),
   ("npfast3", npfast3),
   ("npmid1", npmid1),
   ("npmid2", npmid2),
   ("npmid3", npmid3),
   ("npslow1", npslow1),
   ("npslow2", npslow2),
   ("npslow3", npslow3),
   ("npbrick1", npbrick1),
   ("npbrick2", npbrick2),
   ("npbrick3", npbrick3),
   ("ntrial", ntrial), ("npertrial", npertrial)]

/-- The readable arrays of integers. -/
def intVectors : List (String × (Pub3 → Nat → Option Int)) :=
  [("cflags", cflags), ("eflags", eflags), ("pflags", pflags)]

/-- The readable arrays of times. -/
def doubleVectors : List (String × (Pub3 → Nat → Option ℚ)) :=
  [("tfft", tfft), ("t1d", t1d), ("tremap", tremap), ("tremap1", tremap1), ("tremap2", tremap2), ("tremap3", tremap3), ("tremap4", tremap4)]

/-- An object after construction. -/
def sample : Pub3 where
  collective := 2
  exchange := 0
  packflag := 2
  memoryflag := 1
  scaled := 1
  remaponly := 0
  permute := none
  collective_bp := none
  collective_pp := none
  memusage := 0
  npfast1 := none
  npfast2 := none
  npfast3 := none
  npmid1 := none
  npmid2 := none
  npmid3 := none
  npslow1 := none
  npslow2 := none
  npslow3 := none
  npbrick1 := none
  npbrick2 := none
  npbrick3 := none
  ntrial := some 3
  npertrial := some 7
  cbest := some 1
  ebest := some 0
  pbest := some 2
  besttime := some 5
  setuptime := some 4
  cflags i := if i < 3 then some i else none
  eflags i := if i < 3 then some 0 else none
  pflags i := if i < 3 then some 2 else none
  tfft i := if i < 3 then some 5 else none
  t1d _ := none
  tremap _ := none
  tremap1 _ := none
  tremap2 _ := none
  tremap3 _ := none
  tremap4 _ := none
  fft1d := "KISS"
  precision := "double"

end Pub3

/-- **C36**, set, 3d: for every keyword and value, the setting that the keyword names gets the value, every other
setting and every other public member keeps its value. -/
theorem C36_set3 (f : Pub3) (keyword : String) (value : Int) :
    (∀ v : Setting, (f.set keyword value).setting v = if keyword = v.keyword then value else f.setting v) ∧
      (f.set keyword value).others = f.others := by
  unfold Pub3.set
  constructor
  · intro v
    split_ifs <;> cases v <;> simp_all [Setting.keyword, Pub3.setting]
  · split_ifs <;> rfl

/-- **C36**, set, 3d: a keyword that is not documented changes nothing. -/
theorem C36_unknown3 (f : Pub3) (keyword : String) (value : Int) (h : ∀ v : Setting, keyword ≠ v.keyword) :
    f.set keyword value = f := by
  unfold Pub3.set
  have h1 := h .collective
  have h2 := h .exchange
  have h3 := h .packflag
  have h4 := h .memoryflag
  have h5 := h .scaled
  have h6 := h .remaponly
  simp only [Setting.keyword] at h1 h2 h3 h4 h5 h6
  simp [h1, h2, h3, h4, h5, h6]

example : (Pub3.sample.set "pack" 1).packflag = 1 ∧ (Pub3.sample.set "Pack" 1) = Pub3.sample :=
  ⟨rfl, C36_unknown3 _ _ _ (by intro v; cases v <;> simp [Setting.keyword])⟩

/-- **C36**, get, 3d: the get functions return the variable that the keyword names, and -1 or `NULL` for a keyword
that names none; a vector comes with the number of trials.  The part that is missing is in `C36_get3_false`: the
documented variables `cbest`, `ebest`, `pbest` and `besttime` have no get function. -/
theorem C36_get3_partial (f : Pub3) :
    (∀ x ∈ Pub3.intVars, f.getInt x.1 = x.2 f) ∧
    (∀ k, (∀ x ∈ Pub3.intVars, k ≠ x.1) → f.getInt k = some (-1)) ∧
    f.getDouble "setuptime" = f.setuptime ∧ (∀ k, k ≠ "setuptime" → f.getDouble k = some (-1)) ∧
    f.getInt64 "memusage" = f.memusage ∧ (∀ k, k ≠ "memusage" → f.getInt64 k = -1) ∧
    (∃ n, f.getString "fft1d" = some (f.fft1d, n) ∧ n = f.fft1d.length) ∧
    (∃ n, f.getString "precision" = some (f.precision, n) ∧ n = f.precision.length) ∧
    (∀ k, k ≠ "fft1d" → k ≠ "precision" → f.getString k = none) ∧
    (∀ x ∈ Pub3.intVectors, f.getIntVector x.1 = (some (x.2 f), f.ntrial)) ∧
    (∀ k, (∀ x ∈ Pub3.intVectors, k ≠ x.1) → (f.getIntVector k).1 = none) ∧
    (∀ x ∈ Pub3.doubleVectors, f.getDoubleVector x.1 = (some (x.2 f), f.ntrial)) ∧
    (∀ k, (∀ x ∈ Pub3.doubleVectors, k ≠ x.1) → (f.getDoubleVector k).1 = none) := by
  refine ⟨?_, ?_, rfl, ?_, rfl, ?_, ⟨_, rfl, rfl⟩, ⟨_, rfl, rfl⟩, ?_, ?_, ?_, ?_, ?_⟩
  · simp [Pub3.intVars, Pub3.getInt]
  · intro k h
    simp only [Pub3.intVars, List.forall_mem_cons, List.not_mem_nil] at h
    simp [Pub3.getInt, h]
  · intro k h
    simp [Pub3.getDouble, h]
  · intro k h
    simp [Pub3.getInt64, h]
  · intro k h h'
    simp [Pub3.getString, h, h']
  · simp [Pub3.intVectors, Pub3.getIntVector]
  · intro k h
    simp only [Pub3.intVectors, List.forall_mem_cons, List.not_mem_nil] at h
    simp [Pub3.getIntVector, h]
  · simp [Pub3.doubleVectors, Pub3.getDoubleVector]
  · intro k h
    simp only [Pub3.doubleVectors, List.forall_mem_cons, List.not_mem_nil] at h
    simp [Pub3.getDoubleVector, h]

example : Pub3.sample.getInt "ntrial" = some 3 ∧ Pub3.sample.getInt "trials" = some (-1) :=
  ⟨rfl, (C36_get3_partial Pub3.sample).2.1 _ (by simp [Pub3.intVars])⟩

/-- **C36**, round trip, 3d: for the three settings that can be read back, get returns what the last set with that
keyword stored, whatever other keywords were set in between. -/
theorem C36_roundtrip3 (f : Pub3) (v : Setting) (hv : v = .collective ∨ v = .exchange ∨ v = .packflag) (value : Int)
    (later : List (String × Int)) (h : ∀ x ∈ later, x.1 ≠ v.keyword) :
    (later.foldl (fun g x => g.set x.1 x.2) (f.set v.keyword value)).getInt v.keyword = some value := by
  have key : ∀ (l : List (String × Int)) (g : Pub3), (∀ x ∈ l, x.1 ≠ v.keyword) →
      (l.foldl (fun g x => g.set x.1 x.2) g).setting v = g.setting v := by
    intro l
    induction l with
    | nil => intro g _; rfl
    | cons x l ih =>
      intro g hx
      rw [List.foldl_cons, ih _ fun y hy => hx y (List.mem_cons_of_mem _ hy), (C36_set3 g x.1 x.2).1,
        if_neg (hx x List.mem_cons_self)]
  have h1 : ∀ g : Pub3, g.getInt v.keyword = some (g.setting v) := by
    intro g
    rcases hv with rfl | rfl | rfl <;> simp [Setting.keyword, Pub3.getInt, Pub3.setting]
  rw [h1, key _ _ h, (C36_set3 f _ value).1, if_pos rfl]

example : (((Pub3.sample.set "exchange" 1).set "pack" 0).set "foo" 3).getInt "exchange" = some 1 :=
  C36_roundtrip3 _ .exchange (by simp) 1 [("pack", 0), ("foo", 3)] (by simp [Setting.keyword])

/-- **C36** fails for the documented variables `cbest`, `ebest`, `pbest` and `besttime` (doc/api_stats.txt:35-37):
get returns -1 for each of these names whatever their value.  So do the names of the settings that can be set but
not read: `memory`, `scale`, `remaponly`. -/
theorem C36_get3_false :
    ∃ f : Pub3, f.cbest = some 1 ∧ f.ebest = some 0 ∧ f.pbest = some 2 ∧ f.besttime = some 5 ∧
      f.getInt "cbest" = some (-1) ∧ f.getInt "ebest" = some (-1) ∧ f.getInt "pbest" = some (-1) ∧
      f.getDouble "besttime" = some (-1) ∧
      (f.set "memory" 1).getInt "memory" = some (-1) ∧ (f.set "scale" 1).getInt "scale" = some (-1) ∧
      (f.set "remaponly" 1).getInt "remaponly" = some (-1) :=
  ⟨Pub3.sample, rfl, rfl, rfl, rfl, rfl, rfl, rfl, rfl, rfl, rfl, rfl⟩

namespace Pub2

/-- The value of a setting. -/
def setting (f : Pub2) : Setting → Int
  | .collective => f.collective
  | .exchange => f.exchange
  | .packflag => f.packflag
  | .memoryflag => f.memoryflag
  | .scaled => f.scaled
  | .remaponly => f.remaponly

/-- All members but the settings. -/
def others (f : Pub2) : Pub2 :=
  { f with collective := 0, exchange := 0, packflag := 0, memoryflag := 0, scaled := 0, remaponly := 0 }

/-- The readable integer variables with their names. -/
def intVars : List (String × (Pub2 → Option Int)) :=
  [("collective", fun f => some f.collective), ("exchange", fun f => some f.exchange), ("pack", fun f => some f.packflag),
   ("npfast1", npfast1),
   ("npfast2", npfast2),
   ("npslow1", npslow1),
   ("npslow2", npslow2),
   ("npbrick1", npbrick1),
   ("npbrick2", npbrick2),
   ("ntrial", ntrial), ("npertrial", npertrial)]

/-- The readable arrays of integers. -/
def intVectors : List (String × (Pub2 → Nat → Option Int)) :=
  [("cflags", cflags), ("eflags", eflags), ("pflags", pflags)]

/-- The readable arrays of times. -/
def doubleVectors : List (String × (Pub2 → Nat → Option ℚ)) :=
  [("tfft", tfft), ("t1d", t1d), ("tremap", tremap), ("tremap1", tremap1), ("tremap2", tremap2), ("tremap3", tremap3)]

/-- An object after construction. -/
def sample : Pub2 where
  collective := 2
  exchange := 0
  packflag := 0
  memoryflag := 1
  scaled := 1
  remaponly := 0
  permute := none
  collective_bp := none
  collective_pp := none
  memusage := 0
  npfast1 := none
  npfast2 := none
  npslow1 := none
  npslow2 := none
  npbrick1 := none
  npbrick2 := none
  ntrial := some 3
  npertrial := some 7
  cbest := some 1
  ebest := some 0
  pbest := some 2
  besttime := some 5
  setuptime := some 4
  cflags i := if i < 3 then some i else none
  eflags i := if i < 3 then some 0 else none
  pflags i := if i < 3 then some 2 else none
  tfft i := if i < 3 then some 5 else none
  t1d _ := none
  tremap _ := none
  tremap1 _ := none
  tremap2 _ := none
  tremap3 _ := none
  fft1d := "KISS"
  precision := "double"

end Pub2

/-- **C36**, set, 2d: for every keyword and value, the setting that the keyword names gets the value, every other
setting and every other public member keeps its value. -/
theorem C36_set2 (f : Pub2) (keyword : String) (value : Int) :
    (∀ v : Setting, (f.set keyword value).setting v = if keyword = v.keyword then value else f.setting v) ∧
      (f.set keyword value).others = f.others := by
  unfold Pub2.set
  constructor
  · intro v
    split_ifs <;> cases v <;> simp_all [Setting.keyword, Pub2.setting]
  · split_ifs <;> rfl

/-- **C36**, set, 2d: a keyword that is not documented changes nothing. -/
theorem C36_unknown2 (f : Pub2) (keyword : String) (value : Int) (h : ∀ v : Setting, keyword ≠ v.keyword) :
    f.set keyword value = f := by
  unfold Pub2.set
  have h1 := h .collective
  have h2 := h .exchange
  have h3 := h .packflag
  have h4 := h .memoryflag
  have h5 := h .scaled
  have h6 := h .remaponly
  simp only [Setting.keyword] at h1 h2 h3 h4 h5 h6
  simp [h1, h2, h3, h4, h5, h6]

example : (Pub2.sample.set "pack" 1).packflag = 1 ∧ (Pub2.sample.set "Pack" 1) = Pub2.sample :=
  ⟨rfl, C36_unknown2 _ _ _ (by intro v; cases v <;> simp [Setting.keyword])⟩

/-- **C36**, get, 2d: the get functions return the variable that the keyword names, and -1 or `NULL` for a keyword
that names none; a vector comes with the number of trials.  The part that is missing is in `C36_get2_false`: the
documented variables `cbest`, `ebest`, `pbest` and `besttime` have no get function. -/
theorem C36_get2_partial (f : Pub2) :
    (∀ x ∈ Pub2.intVars, f.getInt x.1 = x.2 f) ∧
    (∀ k, (∀ x ∈ Pub2.intVars, k ≠ x.1) → f.getInt k = some (-1)) ∧
    f.getDouble "setuptime" = f.setuptime ∧ (∀ k, k ≠ "setuptime" → f.getDouble k = some (-1)) ∧
    f.getInt64 "memusage" = f.memusage ∧ (∀ k, k ≠ "memusage" → f.getInt64 k = -1) ∧
    (∃ n, f.getString "fft1d" = some (f.fft1d, n) ∧ n = f.fft1d.length) ∧
    (∃ n, f.getString "precision" = some (f.precision, n) ∧ n = f.precision.length) ∧
    (∀ k, k ≠ "fft1d" → k ≠ "precision" → f.getString k = none) ∧
    (∀ x ∈ Pub2.intVectors, f.getIntVector x.1 = (some (x.2 f), f.ntrial)) ∧
    (∀ k, (∀ x ∈ Pub2.intVectors, k ≠ x.1) → (f.getIntVector k).1 = none) ∧
    (∀ x ∈ Pub2.doubleVectors, f.getDoubleVector x.1 = (some (x.2 f), f.ntrial)) ∧
    (∀ k, (∀ x ∈ Pub2.doubleVectors, k ≠ x.1) → (f.getDoubleVector k).1 = none) := by
  refine ⟨?_, ?_, rfl, ?_, rfl, ?_, ⟨_, rfl, rfl⟩, ⟨_, rfl, rfl⟩, ?_, ?_, ?_, ?_, ?_⟩
  · simp [Pub2.intVars, Pub2.getInt]
  · intro k h
    simp only [Pub2.intVars, List.forall_mem_cons, List.not_mem_nil] at h
    simp [Pub2.getInt, h]
  · intro k h
    simp [Pub2.getDouble, h]
  · intro k h
    simp [Pub2.getInt64, h]
  · intro k h h'
    simp [Pub2.getString, h, h']
  · simp [Pub2.intVectors, Pub2.getIntVector]
  · intro k h
    simp only [Pub2.intVectors, List.forall_mem_cons, List.not_mem_nil] at h
    simp [Pub2.getIntVector, h]
  · simp [Pub2.doubleVectors, Pub2.getDoubleVector]
  · intro k h
    simp only [Pub2.doubleVectors, List.forall_mem_cons, List.not_mem_nil] at h
    simp [Pub2.getDoubleVector, h]

example : Pub2.sample.getInt "ntrial" = some 3 ∧ Pub2.sample.getInt "trials" = some (-1) :=
  ⟨rfl, (C36_get2_partial Pub2.sample).2.1 _ (by simp [Pub2.intVars])⟩

/-- **C36**, round trip, 2d: for the three settings that can be read back, get returns what the last set with that
keyword stored, whatever other keywords were set in between. -/
theorem C36_roundtrip2 (f : Pub2) (v : Setting) (hv : v = .collective ∨ v = .exchange ∨ v = .packflag) (value : Int)
    (later : List (String × Int)) (h : ∀ x ∈ later, x.1 ≠ v.keyword) :
    (later.foldl (fun g x => g.set x.1 x.2) (f.set v.keyword value)).getInt v.keyword = some value := by
  have key : ∀ (l : List (String × Int)) (g : Pub2), (∀ x ∈ l, x.1 ≠ v.keyword) →
      (l.foldl (fun g x => g.set x.1 x.2) g).setting v = g.setting v := by
    intro l
    induction l with
    | nil => intro g _; rfl
    | cons x l ih =>
      intro g hx
      rw [List.foldl_cons, ih _ fun y hy => hx y (List.mem_cons_of_mem _ hy), (C36_set2 g x.1 x.2).1,
        if_neg (hx x List.mem_cons_self)]
  have h1 : ∀ g : Pub2, g.getInt v.keyword = some (g.setting v) := by
    intro g
    rcases hv with rfl | rfl | rfl <;> simp [Setting.keyword, Pub2.getInt, Pub2.setting]
  rw [h1, key _ _ h, (C36_set2 f _ value).1, if_pos rfl]

example : (((Pub2.sample.set "exchange" 1).set "pack" 0).set "foo" 3).getInt "exchange" = some 1 :=
  C36_roundtrip2 _ .exchange (by simp) 1 [("pack", 0), ("foo", 3)] (by simp [Setting.keyword])

/-- **C36** fails for the documented variables `cbest`, `ebest`, `pbest` and `besttime` (doc/api_stats.txt:35-37):
get returns -1 for each of these names whatever their value.  So do the names of the settings that can be set but
not read: `memory`, `scale`, `remaponly`. -/
theorem C36_get2_false :
    ∃ f : Pub2, f.cbest = some 1 ∧ f.ebest = some 0 ∧ f.pbest = some 2 ∧ f.besttime = some 5 ∧
      f.getInt "cbest" = some (-1) ∧ f.getInt "ebest" = some (-1) ∧ f.getInt "pbest" = some (-1) ∧
      f.getDouble "besttime" = some (-1) ∧
      (f.set "memory" 1).getInt "memory" = some (-1) ∧ (f.set "scale" 1).getInt "scale" = some (-1) ∧
      (f.set "remaponly" 1).getInt "remaponly" = some (-1) :=
  ⟨Pub2.sample, rfl, rfl, rfl, rfl, rfl, rfl, rfl, rfl, rfl, rfl, rfl⟩

/-- **C36** for `remap3d_set` and `remap2d_set`: for every keyword and value, `collective` sets collective, `pack`
sets packflag, and every other string changes nothing.  The part that is missing is in `C36_remap_false`. -/
theorem C36_remap_partial (f : PubRemap) (keyword : String) (value : Int) :
    (f.set keyword value).collective = (if keyword = "collective" then value else f.collective) ∧
      (f.set keyword value).packflag = (if keyword = "pack" then value else f.packflag) := by
  unfold PubRemap.set
  split_ifs <;> simp_all

/-- The keyword `memory`, documented in doc/api_remap.txt:217, does nothing for a remap. -/
theorem C36_remap_false (f : PubRemap) (value : Int) : f.set "memory" value = f := by
  simp [PubRemap.set]

example : (PubRemap.set ⟨1, 0⟩ "pack" 2).packflag = 2 := rfl

/-! ## C37: Fortran -/

/-- `f` describes for a caller that counts from 1 what `c` describes for a caller that counts from 0. -/
structure OneBased3 (f c : Raw3) : Prop where
  nfast : f.nfast = c.nfast
  nmid : f.nmid = c.nmid
  nslow : f.nslow = c.nslow
  permute : f.permute = c.permute
  in_ilo : f.in_ilo = c.in_ilo + 1
  in_ihi : f.in_ihi = c.in_ihi + 1
  in_jlo : f.in_jlo = c.in_jlo + 1
  in_jhi : f.in_jhi = c.in_jhi + 1
  in_klo : f.in_klo = c.in_klo + 1
  in_khi : f.in_khi = c.in_khi + 1
  out_ilo : f.out_ilo = c.out_ilo + 1
  out_ihi : f.out_ihi = c.out_ihi + 1
  out_jlo : f.out_jlo = c.out_jlo + 1
  out_jhi : f.out_jhi = c.out_jhi + 1
  out_klo : f.out_klo = c.out_klo + 1
  out_khi : f.out_khi = c.out_khi + 1

theorem OneBased3.sub {f c : Raw3} (h : OneBased3 f c) : c = { f with
    in_ilo := f.in_ilo - 1,
    in_ihi := f.in_ihi - 1,
    in_jlo := f.in_jlo - 1,
    in_jhi := f.in_jhi - 1,
    in_klo := f.in_klo - 1,
    in_khi := f.in_khi - 1,
    out_ilo := f.out_ilo - 1,
    out_ihi := f.out_ihi - 1,
    out_jlo := f.out_jlo - 1,
    out_jhi := f.out_jhi - 1,
    out_klo := f.out_klo - 1,
    out_khi := f.out_khi - 1 } := by
  obtain ⟨h0, h1, h2, h3, h4, h5, h6, h7, h8, h9, h10, h11, h12, h13, h14, h15⟩ := h
  cases f; cases c
  simp_all

/-- **C37**, `fft3d_setup_fortran`: whatever `FFT3d::setup` does with its arguments, the Fortran call with bounds that
count from 1 has the effect of the C call with bounds that count from 0 and stores the same sizes. -/
theorem C37_setup3 {σ : Type} (setup : Raw3 → σ × Sizes) {f c : Raw3} (h : OneBased3 f c) :
    wrap3SetupFortran setup f = wrap3Setup setup c := by
  rw [h.sub]
  rfl

/-- **C37**, `fft3d_tune_fortran`. -/
theorem C37_tune3 {σ : Type} (tune : Raw3 → TuneArgs → σ × Sizes) {f c : Raw3} (h : OneBased3 f c)
    (t : TuneArgs) : wrap3TuneFortran tune f t = wrap3Tune tune c t := by
  rw [h.sub]
  rfl

/-- The C calls hand on their arguments and results as they are. -/
theorem C37_c3 {σ : Type} (setup : Raw3 → σ × Sizes) (tune : Raw3 → TuneArgs → σ × Sizes) (c : Raw3)
    (t : TuneArgs) : wrap3Setup setup c = setup c ∧ wrap3Tune tune c t = tune c t :=
  ⟨rfl, rfl⟩

/-- **C37** for all ranks: if every rank passes bounds that count from 1, then what rank `me` gets from the Fortran
call is what the model of `FFT3d::setup` gives for the bounds that count from 0.  `call` is any function of the
arguments of all ranks. -/
theorem C37_ranks3 {σ : Type} (fp : ℝ → ℝ) (call : Args3 → σ × Sizes) (me : Nat) (f c : Nat → Raw3)
    (h : ∀ r, OneBased3 (f r) (c r)) :
    wrap3SetupFortran (fun y => call (Raw3.args fp me fun r => if r = me then y else
      (wrap3SetupFortran (fun z => (z, ⟨0, 0, 0⟩)) (f r)).1)) (f me) = call (Raw3.args fp me c) := by
  rw [C37_setup3 _ (h me), (C37_c3 _ (fun _ _ => call (Raw3.args fp me c)) (c me) ⟨0, 0, 0, 0⟩).1]
  congr 2
  funext r
  split_ifs with hr
  · rw [hr]
  · rw [C37_setup3 _ (h r)]
    rfl

/-- A rank with the input box 1..4 × 1..8 × 1..8 and an empty output box, counting from 1. -/
def frank : Raw3 where
  nfast := 8
  nmid := 8
  nslow := 8
  in_ilo := 1
  in_ihi := 4
  in_jlo := 1
  in_jhi := 8
  in_klo := 1
  in_khi := 8
  out_ilo := 1
  out_ihi := 0
  out_jlo := 1
  out_jhi := 8
  out_klo := 1
  out_khi := 8
  permute := 0

/-- The same boxes counting from 0. -/
def crank : Raw3 where
  nfast := 8
  nmid := 8
  nslow := 8
  in_ilo := 0
  in_ihi := 3
  in_jlo := 0
  in_jhi := 7
  in_klo := 0
  in_khi := 7
  out_ilo := 0
  out_ihi := -1
  out_jlo := 0
  out_jhi := 7
  out_klo := 0
  out_khi := 7
  permute := 0

example : OneBased3 frank crank := by
  constructor <;> rfl

/-- `f` describes for a caller that counts from 1 what `c` describes for a caller that counts from 0. -/
structure OneBased2 (f c : Raw2) : Prop where
  nfast : f.nfast = c.nfast
  nslow : f.nslow = c.nslow
  permute : f.permute = c.permute
  in_ilo : f.in_ilo = c.in_ilo + 1
  in_ihi : f.in_ihi = c.in_ihi + 1
  in_jlo : f.in_jlo = c.in_jlo + 1
  in_jhi : f.in_jhi = c.in_jhi + 1
  out_ilo : f.out_ilo = c.out_ilo + 1
  out_ihi : f.out_ihi = c.out_ihi + 1
  out_jlo : f.out_jlo = c.out_jlo + 1
  out_jhi : f.out_jhi = c.out_jhi + 1

theorem OneBased2.sub {f c : Raw2} (h : OneBased2 f c) : c = { f with
    in_ilo := f.in_ilo - 1,
    in_ihi := f.in_ihi - 1,
    in_jlo := f.in_jlo - 1,
    in_jhi := f.in_jhi - 1,
    out_ilo := f.out_ilo - 1,
    out_ihi := f.out_ihi - 1,
    out_jlo := f.out_jlo - 1,
    out_jhi := f.out_jhi - 1 } := by
  obtain ⟨h0, h1, h2, h3, h4, h5, h6, h7, h8, h9, h10⟩ := h
  cases f; cases c
  simp_all

/-- **C37**, `fft2d_setup_fortran`: whatever `FFT2d::setup` does with its arguments, the Fortran call with bounds that
count from 1 has the effect of the C call with bounds that count from 0 and stores the same sizes. -/
theorem C37_setup2 {σ : Type} (setup : Raw2 → σ × Sizes) {f c : Raw2} (h : OneBased2 f c) :
    wrap2SetupFortran setup f = wrap2Setup setup c := by
  rw [h.sub]
  rfl

/-- **C37**, `fft2d_tune_fortran`. -/
theorem C37_tune2 {σ : Type} (tune : Raw2 → TuneArgs → σ × Sizes) {f c : Raw2} (h : OneBased2 f c)
    (t : TuneArgs) : wrap2TuneFortran tune f t = wrap2Tune tune c t := by
  rw [h.sub]
  rfl

/-- The C calls hand on their arguments and results as they are. -/
theorem C37_c2 {σ : Type} (setup : Raw2 → σ × Sizes) (tune : Raw2 → TuneArgs → σ × Sizes) (c : Raw2)
    (t : TuneArgs) : wrap2Setup setup c = setup c ∧ wrap2Tune tune c t = tune c t :=
  ⟨rfl, rfl⟩

example : OneBased2 ⟨8, 8, 1, 4, 1, 8, 1, 0, 1, 8, 0⟩ ⟨8, 8, 0, 3, 0, 7, 0, -1, 0, 7, 0⟩ := by
  constructor <;> rfl

/-- The same for the arguments of a remap. -/
structure OneBasedRemap3 (f c : RawRemap3) : Prop where
  nqty : f.nqty = c.nqty
  permute : f.permute = c.permute
  memoryflag : f.memoryflag = c.memoryflag
  in_ilo : f.in_ilo = c.in_ilo + 1
  in_ihi : f.in_ihi = c.in_ihi + 1
  in_jlo : f.in_jlo = c.in_jlo + 1
  in_jhi : f.in_jhi = c.in_jhi + 1
  in_klo : f.in_klo = c.in_klo + 1
  in_khi : f.in_khi = c.in_khi + 1
  out_ilo : f.out_ilo = c.out_ilo + 1
  out_ihi : f.out_ihi = c.out_ihi + 1
  out_jlo : f.out_jlo = c.out_jlo + 1
  out_jhi : f.out_jhi = c.out_jhi + 1
  out_klo : f.out_klo = c.out_klo + 1
  out_khi : f.out_khi = c.out_khi + 1

/-- **C37**, `remap3d_setup_fortran`. -/
theorem C37_remap3 {σ : Type} (setup : RawRemap3 → σ × Int × Int) {f c : RawRemap3} (h : OneBasedRemap3 f c) :
    wrapRemap3SetupFortran setup f = wrapRemap3Setup setup c ∧ wrapRemap3Setup setup c = setup c := by
  obtain ⟨h0, h1, h2, h3, h4, h5, h6, h7, h8, h9, h10, h11, h12, h13, h14⟩ := h
  cases f; cases c
  refine ⟨?_, rfl⟩
  simp_all [wrapRemap3SetupFortran, wrapRemap3Setup]

example : OneBasedRemap3 ⟨1, 4, 1, 8, 1, 8, 1, 0, 1, 8, 1, 8, 2, 1, 1⟩ ⟨0, 3, 0, 7, 0, 7, 0, -1, 0, 7, 0, 7, 2, 1, 1⟩ := by
  constructor <;> rfl

/-- The same for the arguments of a remap. -/
structure OneBasedRemap2 (f c : RawRemap2) : Prop where
  nqty : f.nqty = c.nqty
  permute : f.permute = c.permute
  memoryflag : f.memoryflag = c.memoryflag
  in_ilo : f.in_ilo = c.in_ilo + 1
  in_ihi : f.in_ihi = c.in_ihi + 1
  in_jlo : f.in_jlo = c.in_jlo + 1
  in_jhi : f.in_jhi = c.in_jhi + 1
  out_ilo : f.out_ilo = c.out_ilo + 1
  out_ihi : f.out_ihi = c.out_ihi + 1
  out_jlo : f.out_jlo = c.out_jlo + 1
  out_jhi : f.out_jhi = c.out_jhi + 1

/-- **C37**, `remap2d_setup_fortran`. -/
theorem C37_remap2 {σ : Type} (setup : RawRemap2 → σ × Int × Int) {f c : RawRemap2} (h : OneBasedRemap2 f c) :
    wrapRemap2SetupFortran setup f = wrapRemap2Setup setup c ∧ wrapRemap2Setup setup c = setup c := by
  obtain ⟨h0, h1, h2, h3, h4, h5, h6, h7, h8, h9, h10⟩ := h
  cases f; cases c
  refine ⟨?_, rfl⟩
  simp_all [wrapRemap2SetupFortran, wrapRemap2Setup]

example : OneBasedRemap2 ⟨1, 4, 1, 8, 1, 0, 1, 8, 2, 1, 1⟩ ⟨0, 3, 0, 7, 0, -1, 0, 7, 2, 1, 1⟩ := by
  constructor <;> rfl

end FftMpi
