import Verif.LifecycleTune
import Mathlib.Data.List.TakeWhile

/-!
# Histories of calls on an `FFT3d` or `FFT2d`: specification and invariant
-/

namespace FftMpi

open FftLife

variable {A : Type}

/-! ## Which calls must be rejected

Said in terms of the calls made before; no reference to the members of the object. -/

namespace FftLife.Call

/-- The call makes the plan. -/
def plans : Call A → Bool
  | .setup _ => true
  | .tune _ _ _ _ => true
  | _ => false

/-- The call passes buffers. -/
def passes : Call A → Bool
  | .setupMemory _ _ => true
  | _ => false

/-- The call is an assignment to `memoryflag`. -/
def flags : Call A → Bool
  | .assign .memoryflag _ => true
  | _ => false

end FftLife.Call

/-- A plan was made. -/
def planned (past : List (Call A)) : Bool := past.any Call.plans

/-- `memoryflag`: the value assigned last, 1 if none was. -/
def flagAt (past : List (Call A)) : Int :=
  past.foldl (fun v c => match c with | .assign .memoryflag w => w | _ => v) 1

/-- What came before the plan was made. -/
def beforePlan (past : List (Call A)) : List (Call A) := past.takeWhile fun c => !c.plans

/-- What came from then on. -/
def sincePlan (past : List (Call A)) : List (Call A) := past.dropWhile fun c => !c.plans

/-- There are buffers: the library made them with the plan, or they were passed. -/
def buffered (past : List (Call A)) : Bool :=
  (planned past && decide (flagAt (beforePlan past) ≠ 0)) || past.any Call.passes

/-- The error with which a call must stop, if any; `bad` says which arguments of `setup` are wrong. -/
def expected (bad : A → Bool) (past : List (Call A)) : Call A → Option LifeErr
  | .assign _ _ => none
  | .setup a => if planned past then some .setupTwice else if bad a then some .badSetup else none
  | .setupMemory _ _ =>
    if !planned past then some .memoryBeforeSetup
    else if flagAt past ≠ 0 then some .memoryWithFlag
    else none
  | .use (.only1d _) => if !planned past then some .beforeSetup else none
  | .use _ =>
    if !planned past then some .beforeSetup
    else if !buffered past then some .beforeSetupMemory
    else none
  | .tune a t _ _ =>
    if planned past then some .tuneTwice
    else if t.flag < -1 ∨ 1 < t.flag ∨ t.niter ≤ 0 ∨ t.tmax < 0 ∨ t.tflag < 0 ∨ 1 < t.tflag then some .badTune
    else if bad a then some .badSetup
    else none

/-- The first error in a history that continues `past`. -/
def firstError (bad : A → Bool) (past : List (Call A)) : List (Call A) → Option LifeErr
  | [] => none
  | c :: cs =>
    match expected bad past c with
    | some e => some e
    | none => firstError bad (past ++ [c]) cs

/-! ## What the caller must respect otherwise -/

/-- Documented values. -/
def GoodValue : Member → Int → Prop
  | .collective, v => 0 ≤ v ∧ v ≤ 2
  | .exchange, v => 0 ≤ v ∧ v ≤ 1
  | .packflag, v => 0 ≤ v ∧ v ≤ 2
  | _, _ => True

/-- `setup` accepts the arguments or rejects them, whatever the settings; if it accepts them then the buffers
suffice. -/
def PlanArgs (C : Cfg A) (bad : A → Bool) (a : A) : Prop :=
  (bad a = false → PlanGood C a) ∧
    (bad a = true → ∀ st, GoodSettings st → ∃ e, C.plan a st = some (.error e))

/-- Values in range; arguments as above; buffers as long as `setup` said; for `tune` what `C32_defined` needs of
the clocks.  `FFT2d::setup` must not be called twice, it does not notice. -/
def GoodCall (C : Cfg A) (bad : A → Bool) (s : FftLife) : Call A → Prop
  | .assign m v => GoodValue m v
  | .setup a => PlanArgs C bad a ∧ (C.cls = .d2 → s.setupflag = false)
  | .setupMemory sb rb => ∀ k, s.skel = some k → ∃ x y, sb = .user x ∧ rb = .user y ∧
      k.sendsize * C.z.scalar ≤ x ∧ k.recvsize * C.z.scalar ≤ y
  | .use _ => True
  | .tune a t root own => PlanArgs C bad a ∧ 3 * t.niter ≤ intMax ∧ TimeFp root.fp ∧ 0 ≤ root.setup0 ∧ 0 < (root.run 0).tfft ∧
      root.setup0 ≤ intMax * (root.run 0).tfft ∧ ∀ k, (own.run k).tfft < tuneBIG

def GoodCalls (C : Cfg A) (bad : A → Bool) : List (Call A) → FftLife → Heap → Prop
  | [], _, _ => True
  | c :: cs, s, h => GoodCall C bad s c ∧ ∀ s' h', s.call C c h = some (.ok (s', h')) → GoodCalls C bad cs s' h'

/-! ## Lemmas about histories -/

theorem planned_snoc (past : List (Call A)) (c : Call A) : planned (past ++ [c]) = (planned past || c.plans) := by
  simp [planned]

theorem flagAt_snoc (past : List (Call A)) (c : Call A) :
    flagAt (past ++ [c]) = match c with | .assign .memoryflag w => w | _ => flagAt past := by
  simp only [flagAt, List.foldl_append, List.foldl_cons, List.foldl_nil]

theorem beforePlan_eq {past : List (Call A)} (h : planned past = false) : beforePlan past = past := by
  unfold beforePlan
  rw [List.takeWhile_eq_self_iff]
  intro c hc
  simp only [planned, List.any_eq_false] at h
  simpa using h c hc

theorem sincePlan_eq {past : List (Call A)} (h : planned past = false) : sincePlan past = [] := by
  unfold sincePlan
  rw [List.dropWhile_eq_nil_iff]
  intro c hc
  simp only [planned, List.any_eq_false] at h
  simpa using h c hc

theorem beforePlan_snoc {past : List (Call A)} (h : planned past = true) (cs : List (Call A)) :
    beforePlan (past ++ cs) = beforePlan past := by
  unfold beforePlan
  rw [List.takeWhile_append, if_neg]
  intro he
  obtain ⟨c, hc, hp⟩ := List.any_eq_true.1 h
  have h1 : past.takeWhile (fun c => !c.plans) = past :=
    (List.takeWhile_prefix _).eq_of_length he
  have h2 : c ∈ past.takeWhile fun c => !c.plans := by rw [h1]; exact hc
  have := List.mem_takeWhile_imp h2
  simp [hp] at this

theorem sincePlan_snoc {past : List (Call A)} (h : planned past = true) (cs : List (Call A)) :
    sincePlan (past ++ cs) = sincePlan past ++ cs := by
  have h1 := List.takeWhile_append_dropWhile (p := fun c : Call A => !c.plans) (l := past ++ cs)
  have h2 := List.takeWhile_append_dropWhile (p := fun c : Call A => !c.plans) (l := past)
  have h3 := beforePlan_snoc h cs
  unfold beforePlan at h3
  rw [h3] at h1
  have h4 : past.takeWhile (fun c => !c.plans) ++ (past ++ cs).dropWhile (fun c => !c.plans) =
      past.takeWhile (fun c => !c.plans) ++ (past.dropWhile (fun c => !c.plans) ++ cs) := by
    rw [h1, ← List.append_assoc, h2]
  exact List.append_cancel_left h4

theorem sincePlan_first {past : List (Call A)} (h : planned past = false) {c : Call A} (hc : c.plans = true) :
    sincePlan (past ++ [c]) = [c] := by
  unfold sincePlan
  have h0 : past.dropWhile (fun c => !c.plans) = [] := sincePlan_eq h
  rw [List.dropWhile_append, h0]
  simp [hc]

theorem beforePlan_first {past : List (Call A)} (h : planned past = false) {c : Call A} (hc : c.plans = true) :
    beforePlan (past ++ [c]) = past := by
  unfold beforePlan
  have h0 : past.takeWhile (fun c => !c.plans) = past := beforePlan_eq h
  rw [List.takeWhile_append, h0, if_pos rfl]
  simp [hc]

/-! ## Invariant -/

/-- The object after the history `past`; `F` are the blocks of the rest of the program. -/
structure LifeInv (C : Cfg A) (F : List Blk) (past : List (Call A)) (s : FftLife) (h : Heap) : Prop where
  based : s.Based
  good : GoodSettings s.t.st
  flag : s.t.memoryflag = flagAt past
  noPass : planned past = false → past.any Call.passes = false
  idle : planned past = false → s.Idle C.cls ∧ s.skel = none ∧ Owns F (s.base C.z) h
  active : planned past = true → ∃ k p q, k.OK C.cls ∧ s.Active C.lib C.cls C.z k (flagAt (beforePlan past)) p q ∧
    Owns F (s.parts C.lib C.cls C.z k ++ (libItems C.z k (flagAt (beforePlan past)) p q ++ s.base C.z)) h ∧
    s.setupMemoryFlag = buffered past ∧
    ((sincePlan past).any Call.flags = false → flagAt past = flagAt (beforePlan past) ∧
      (flagAt past ≠ 0 → s.sendbuf = p ∧ s.recvbuf = q))

theorem LifeInv.setupflag {C : Cfg A} {F : List Blk} {past : List (Call A)} {s : FftLife} {h : Heap}
    (I : LifeInv C F past s h) : s.setupflag = planned past := by
  cases hp : planned past with
  | false => exact (I.idle hp).1.setupflag
  | true =>
    obtain ⟨k, p, q, -, ha, -⟩ := I.active hp
    exact ha.setupflag

theorem newSettings_good (cls : Cls) : GoodSettings (newSettings cls).st := by
  cases cls <;> exact ⟨by decide, by decide, by decide⟩

theorem LifeInv.create (C : Cfg A) {F : List Blk} {h : Heap} (o : Owns F [] h) :
    LifeInv C F [] (FftLife.create C.cls C.z h).1 (FftLife.create C.cls C.z h).2 where
  based := (create_idle C.cls C.z h).2
  good := newSettings_good C.cls
  flag := rfl
  noPass := fun _ => rfl
  idle := fun _ => ⟨(create_idle C.cls C.z h).1, rfl, by simpa using create_owns C.cls (z := C.z) o⟩
  active := fun h => by simp [planned] at h

/-- The plan is made. -/
theorem LifeInv.planDone {C : Cfg A} {F : List Blk} {past : List (Call A)} {s s' : FftLife} {h h' : Heap}
    (I : LifeInv C F past s h) (hp : planned past = false) {c : Call A} (hc : c.plans = true) {k : FSkel}
    (hk : k.OK C.cls) (D : Done C k F (s.base C.z) s s' h') (hg : GoodSettings s'.t.st)
    (hm : s'.t.memoryflag = s.t.memoryflag) : LifeInv C F (past ++ [c]) s' h' := by
  obtain ⟨t, mf, fwd, inv, fs, bp, bq, mu, e⟩ := D.eq
  have hfl : flagAt (past ++ [c]) = flagAt past := by
    rw [flagAt_snoc]
    cases c with
    | assign m v => simp [Call.plans] at hc
    | _ => rfl
  have hm' : s'.t.memoryflag = flagAt past := hm.trans I.flag
  have hpass : (past ++ [c]).any Call.passes = false := by
    rw [List.any_append, I.noPass hp]
    cases c <;> simp_all [Call.plans, Call.passes]
  refine ⟨?_, hg, ?_, ?_, ?_, ?_⟩
  · rw [e]; exact ⟨I.based.this, I.based.memory, I.based.error, I.based.primes, I.based.factors⟩
  · rw [hfl, hm']
  · intro h; rw [planned_snoc, hc, Bool.or_true] at h; simp at h
  · intro h; rw [planned_snoc, hc, Bool.or_true] at h; simp at h
  · intro _
    obtain ⟨p, q, ha, o, hb⟩ := D.active
    rw [beforePlan_first hp hc]
    rw [hm'] at ha o hb
    refine ⟨k, p, q, hk, ha, ?_, ?_, ?_⟩
    · have : s'.base C.z = s.base C.z := by rw [e]; rfl
      rw [this]
      exact o
    · rw [D.flag, hm']
      simp [buffered, planned_snoc, hc, beforePlan_first hp hc, hpass]
    · intro _
      rw [hfl]
      exact ⟨rfl, hb⟩

/-- An assignment. -/
theorem LifeInv.assign {C : Cfg A} {F : List Blk} {past : List (Call A)} {s : FftLife} {h : Heap}
    (I : LifeInv C F past s h) {m : Member} {v : Int} (hv : GoodValue m v) :
    LifeInv C F (past ++ [.assign m v]) (s.assign m v) h := by
  have hpl : planned (past ++ [Call.assign m v]) = planned past := by rw [planned_snoc]; simp [Call.plans]
  have hpa : (past ++ [Call.assign m v]).any Call.passes = past.any Call.passes := by simp [Call.passes]
  have hs : ∃ t sc ro, s.assign m v = { s with t := t, scaled := sc, remaponly := ro } ∧ GoodSettings t.st ∧
      t.memoryflag = flagAt (past ++ [.assign m v]) := by
    have g := I.good
    have f := I.flag
    rw [flagAt_snoc]
    cases m with
    | collective => exact ⟨_, _, _, rfl, ⟨hv, g.2.1, g.2.2⟩, f⟩
    | exchange => exact ⟨_, _, _, rfl, ⟨g.1, hv, g.2.2⟩, f⟩
    | packflag => exact ⟨_, _, _, rfl, ⟨g.1, g.2.1, hv⟩, f⟩
    | memoryflag => exact ⟨_, _, _, rfl, g, rfl⟩
    | scaled => exact ⟨_, _, _, rfl, g, f⟩
    | remaponly => exact ⟨_, _, _, rfl, g, f⟩
  obtain ⟨t, sc, ro, e, hg, hf⟩ := hs
  rw [e]
  refine ⟨⟨I.based.this, I.based.memory, I.based.error, I.based.primes, I.based.factors⟩, hg, hf, ?_, ?_, ?_⟩
  · rw [hpl, hpa]; exact I.noPass
  · rw [hpl]
    intro hp
    obtain ⟨i, hk, o⟩ := I.idle hp
    exact ⟨⟨i.setupflag, i.setupMemoryFlag, i.fwd, i.inv, i.ffts, i.sendbuf, i.recvbuf⟩, hk, o⟩
  · rw [hpl]
    intro hp
    obtain ⟨k, p, q, hk, ha, o, hb, hkept⟩ := I.active hp
    rw [beforePlan_snoc hp]
    refine ⟨k, p, q, hk, ⟨ha.setupflag, ha.skel, ha.fwd, ha.inv, ha.ffts, ha.lib, ha.bufs, ha.nobufs⟩, o, ?_, ?_⟩
    · show s.setupMemoryFlag = _
      rw [hb]
      unfold buffered
      rw [hpl, hpa, beforePlan_snoc hp]
    · rw [sincePlan_snoc hp, List.any_append, Bool.or_eq_false_iff]
      rintro ⟨h1, h2⟩
      have : flagAt (past ++ [Call.assign m v]) = flagAt past := by
        rw [flagAt_snoc]
        cases m <;> first | rfl | simp [Call.flags] at h2
      rw [this]
      exact hkept h1

theorem tuneCheck_none {t : TuneArgs} (h : ¬ (t.flag < -1 ∨ 1 < t.flag ∨ t.niter ≤ 0 ∨ t.tmax < 0 ∨ t.tflag < 0 ∨ 1 < t.tflag)) :
    tuneCheck false t = none := by
  push Not at h
  unfold tuneCheck
  rw [if_neg (by simp), if_neg (by omega), if_neg, if_neg (by omega)]
  push Not
  exact ⟨h.2.2.1, h.2.2.2.1⟩

theorem tuneCheck_bad {t : TuneArgs} (h : t.flag < -1 ∨ 1 < t.flag ∨ t.niter ≤ 0 ∨ t.tmax < 0 ∨ t.tflag < 0 ∨ 1 < t.tflag) :
    ∃ e, tuneCheck false t = some e ∧ e ≠ .already := by
  unfold tuneCheck
  rw [if_neg (by simp)]
  split_ifs with h1 h2 h3
  · exact ⟨_, rfl, by simp⟩
  · exact ⟨_, rfl, by simp⟩
  · exact ⟨_, rfl, by simp⟩
  · exfalso
    push Not at h1 h2 h3
    rcases h with h | h | h | h | h | h
    · omega
    · omega
    · omega
    · exact absurd h (not_lt.2 h2.2)
    · omega
    · omega

/-- One call. -/
theorem LifeInv.call {C : Cfg A} (hC : C.strict = false) (hz : C.z.Pos) {bad : A → Bool} {F : List Blk}
    {past : List (Call A)} {s : FftLife} {h : Heap} (I : LifeInv C F past s h) {c : Call A} (hg : GoodCall C bad s c) :
    match expected bad past c with
    | some e => s.call C c h = some (.error e)
    | none => ∃ s' h', s.call C c h = some (.ok (s', h')) ∧ LifeInv C F (past ++ [c]) s' h' := by
  cases c with
  | assign m v => exact ⟨_, _, rfl, I.assign hg⟩
  | setup a =>
    obtain ⟨hg, h2⟩ := hg
    simp only [expected]
    cases hp : planned past with
    | true =>
      have hs := I.setupflag.trans hp
      simp only [if_true]
      have : C.cls = .d3 := by
        cases hc : C.cls with
        | d3 => rfl
        | d2 => rw [h2 hc] at hs; simp at hs
      show s.setup C a h = _
      unfold FftLife.setup
      rw [if_pos ⟨this, hs⟩]
    | false =>
      simp only [Bool.false_eq_true, if_false]
      obtain ⟨i, hk, o⟩ := I.idle hp
      cases hb : bad a with
      | true =>
        obtain ⟨e, he⟩ := hg.2 hb _ I.good
        simp only [if_true]
        show s.setup C a h = _
        unfold FftLife.setup
        rw [if_neg (by rw [i.setupflag]; simp), he]
      | false =>
        obtain ⟨k, he, hok⟩ := hg.1 hb _ I.good
        simp only [Bool.false_eq_true, if_false]
        obtain ⟨s', h', e, D, et⟩ := setup_done hz i he hok o
        exact ⟨s', h', e, I.planDone hp rfl hok D (by rw [et]; exact I.good) (by rw [et])⟩
  | setupMemory sb rb =>
    simp only [expected, FftLife.call]
    cases hp : planned past with
    | false =>
      obtain ⟨i, hk, o⟩ := I.idle hp
      simp [FftLife.setupMemory, i.setupflag]
    | true =>
      obtain ⟨k, p, q, hk, ha, o, hb, hkept⟩ := I.active hp
      simp only [Bool.not_true, Bool.false_eq_true, if_false]
      by_cases hm : flagAt past = 0
      · rw [if_neg (by simpa using hm)]
        unfold FftLife.setupMemory
        rw [if_neg (by simp [ha.setupflag]), if_neg (by rw [I.flag]; simpa using hm)]
        refine ⟨_, _, rfl, ?_⟩
        obtain ⟨x, y, rfl, rfl, hx, hy⟩ := hg k ha.skel
        refine ⟨⟨I.based.this, I.based.memory, I.based.error, I.based.primes, I.based.factors⟩, I.good, ?_, ?_, ?_, ?_⟩
        · rw [flagAt_snoc]; exact I.flag
        · rw [planned_snoc, hp]; simp
        · rw [planned_snoc, hp]; simp
        · intro _
          rw [beforePlan_snoc hp]
          refine ⟨k, p, q, hk, ⟨ha.setupflag, ha.skel, ha.fwd, ha.inv, ha.ffts, ha.lib, ?_, ?_⟩, o, ?_, ?_⟩
          · exact fun _ => Or.inr ⟨x, y, rfl, rfl, hx, hy⟩
          · intro h; simp at h
          · simp [buffered, Call.passes]
          · rw [sincePlan_snoc hp, List.any_append, Bool.or_eq_false_iff]
            rintro ⟨h1, -⟩
            rw [flagAt_snoc]
            refine ⟨(hkept h1).1, fun h => absurd hm h⟩
      · rw [if_pos hm]
        unfold FftLife.setupMemory
        rw [if_neg (by simp [ha.setupflag]), if_pos (by rw [I.flag]; exact hm)]
  | use u =>
    have hex : expected bad past (.use u) = if !planned past then some .beforeSetup
        else if u.needs && !buffered past then some .beforeSetupMemory else none := by
      cases u <;> simp [expected, Use.needs]
    rw [hex]
    simp only [FftLife.call]
    cases hp : planned past with
    | false =>
      obtain ⟨i, hk, o⟩ := I.idle hp
      simp [FftLife.use, i.setupflag]
    | true =>
      obtain ⟨k, p, q, hk, ha, o, hb, hkept⟩ := I.active hp
      simp only [Bool.not_true, Bool.false_eq_true, if_false]
      cases hn : (u.needs && !buffered past) with
      | true =>
        simp only [if_true]
        rw [Bool.and_eq_true, Bool.not_eq_true', ← hb] at hn
        have : s.use C u h = some (.error .beforeSetupMemory) := by
          unfold FftLife.use
          rw [if_neg (by simp [ha.setupflag])]
          cases u with
          | only1d f => simp [Use.needs] at hn
          | _ => simp [hn.2]
        simp [this]
      | false =>
        simp only [Bool.false_eq_true, if_false]
        obtain ⟨s', e, l⟩ := use_ok hz hk ha u (by
          intro h; rw [h, ← hb] at hn; simpa using hn) o
        rw [e]
        refine ⟨s', h, rfl, ?_⟩
        obtain ⟨fwd, inv, e'⟩ := l.eq
        have hbase : s'.base C.z = s.base C.z := by rw [e']; rfl
        refine ⟨?_, ?_, ?_, ?_, ?_, ?_⟩
        · rw [e']; exact ⟨I.based.this, I.based.memory, I.based.error, I.based.primes, I.based.factors⟩
        · rw [e']; exact I.good
        · rw [flagAt_snoc, e']; exact I.flag
        · rw [planned_snoc, hp]; simp
        · rw [planned_snoc, hp]; simp
        · intro _
          rw [beforePlan_snoc hp]
          refine ⟨k, p, q, hk, l.active, ?_, ?_, ?_⟩
          · rw [l.parts, hbase]; exact o
          · have : s'.setupMemoryFlag = s.setupMemoryFlag := by rw [e']
            rw [this, hb]
            simp [buffered, planned_snoc, hp, beforePlan_snoc hp, Call.passes]
          · rw [sincePlan_snoc hp, List.any_append, Bool.or_eq_false_iff]
            rintro ⟨h1, -⟩
            rw [flagAt_snoc, e']
            exact hkept h1
  | tune a t root own =>
    obtain ⟨hg, h3, T, hs0, hf0, hr0, hbig⟩ := hg
    simp only [expected, FftLife.call]
    cases hp : planned past with
    | true =>
      simp only [if_true]
      unfold FftLife.tune
      rw [I.setupflag.trans hp]
      simp [tuneCheck]
    | false =>
      obtain ⟨i, hk, o⟩ := I.idle hp
      simp only [Bool.false_eq_true, if_false]
      by_cases hb : t.flag < -1 ∨ 1 < t.flag ∨ t.niter ≤ 0 ∨ t.tmax < 0 ∨ t.tflag < 0 ∨ 1 < t.tflag
      · rw [if_pos hb]
        obtain ⟨e, he, hne⟩ := tuneCheck_bad hb
        unfold FftLife.tune
        rw [i.setupflag, he]
        cases e <;> simp_all
      · rw [if_neg hb]
        have hc := tuneCheck_none hb
        cases hba : bad a with
        | true =>
          obtain ⟨e, he⟩ := hg.2 hba _ I.good
          simp only [if_true]
          unfold FftLife.tune
          rw [i.setupflag, hc, he]
        | false =>
          simp only [Bool.false_eq_true, if_false]
          obtain ⟨r, hr⟩ := C32_defined (fs := planSize C.plan a) s.t T hc h3 hs0 hf0 hr0 hbig
          obtain ⟨k, s', h', e, hok, D, et, hpl⟩ := tune_done hC hz (hg.1 hba) i I.good hc hr hbig o
          obtain ⟨g1, g2, -⟩ := tune_good hr hbig I.good
          exact ⟨s', h', e, I.planDone hp rfl hok D (by rw [et]; exact g1) (by rw [et]; exact g2)⟩

/-- All calls. -/
theorem LifeInv.calls {C : Cfg A} (hC : C.strict = false) (hz : C.z.Pos) {bad : A → Bool} {F : List Blk} :
    ∀ (cs past : List (Call A)) {s : FftLife} {h : Heap}, LifeInv C F past s h → GoodCalls C bad cs s h →
    match firstError bad past cs with
    | some e => s.calls C cs h = some (.error e)
    | none => ∃ s' h', s.calls C cs h = some (.ok (s', h')) ∧ LifeInv C F (past ++ cs) s' h'
  | [], past, s, h, I, _ => ⟨s, h, rfl, by simpa using I⟩
  | c :: cs, past, s, h, I, hg => by
    have h1 := I.call hC hz hg.1
    simp only [firstError]
    cases he : expected bad past c with
    | some e =>
      rw [he] at h1
      simp only at h1 ⊢
      simp only [FftLife.calls, h1]
    | none =>
      rw [he] at h1
      obtain ⟨s1, h1', e1, I1⟩ := h1
      have := LifeInv.calls hC hz cs (past ++ [c]) I1 (hg.2 _ _ e1)
      simp only [FftLife.calls, e1]
      rw [show past ++ c :: cs = past ++ [c] ++ cs by simp]
      exact this

/-! ## Destructor -/

theorem LifeInv.destroy {C : Cfg A} (hC : C.strict = false) {F : List Blk} {past : List (Call A)} {s : FftLife}
    {h : Heap} (I : LifeInv C F past s h) (h2 : C.cls = .d2 → planned past = true)
    (hf : (sincePlan past).any Call.flags = false) :
    ∃ h', s.destroy C h = some h' ∧ Owns F [] h' := by
  obtain ⟨⟨n0, b0⟩, ⟨n1, b1⟩, ⟨n2, b2⟩, ⟨n3, b3⟩, ⟨n4, b4⟩⟩ := I.based
  have key : ∀ (xs : List Item), Owns F (s.base C.z ++ xs) h →
      ∃ h1, h.freeAll false s.memory [.del s.memory, .del s.error, .delArr s.primes, .delArr s.factors] = some h1 ∧
        Owns F (⟨s.this, .obj, 1⟩ :: xs) h1 := by
    intro xs o
    refine Owns.freeAll _ [⟨s.memory, .obj, 1⟩, ⟨s.error, .obj, 1⟩, ⟨s.primes, .arr, 3 * C.z.int⟩,
      ⟨s.factors, .arr, 50 * C.z.int⟩] (⟨s.this, .obj, 1⟩ :: xs) o ?_
    exact .cons ⟨rfl, rfl, by simp [b1]⟩ (.cons ⟨rfl, rfl, by simp [b2]⟩ (.cons ⟨rfl, rfl, by simp [b3]⟩
      (.cons ⟨rfl, rfl, by simp [b4]⟩ .nil)))
  have last : ∀ {h1 : Heap}, Owns F [⟨s.this, .obj, 1⟩] h1 → ∃ h', h1.free (.del s.this) = some h' ∧ Owns F [] h' :=
    fun o => o.free rfl rfl (by simp [b0])
  cases hp : planned past with
  | false =>
    obtain ⟨i, hk, o⟩ := I.idle hp
    have hc : C.cls = .d3 := by
      cases hc : C.cls with
      | d3 => rfl
      | d2 => rw [h2 hc] at hp; simp at hp
    obtain ⟨h1, e1, o1⟩ := key [] (by simpa using o)
    obtain ⟨h', e', o'⟩ := last o1
    refine ⟨h', ?_, o'⟩
    unfold FftLife.destroy
    simp only [hC, e1, hc, i.setupflag, Bool.false_eq_true, if_false, Option.bind_eq_bind, Option.bind_some]
    by_cases hm : s.t.memoryflag = 0
    · rw [if_neg (by simpa using hm)]
      exact e'
    · rw [if_pos hm]
      simp only [FftLife.deallocateSetupMemory, i.sendbuf, i.recvbuf, hC, Heap.freeAll, Bool.false_and,
        Bool.false_eq_true, if_false, Heap.free, Free.ptr, Option.bind_some, Option.bind_eq_bind]
      exact e'
  | true =>
    obtain ⟨k, p, q, hk, ha, o, hb, hkept⟩ := I.active hp
    obtain ⟨hflag, hbufs⟩ := hkept hf
    rw [← hflag] at ha o
    obtain ⟨h1, e1, o1⟩ := key (s.parts C.lib C.cls C.z k ++ libItems C.z k (flagAt past) p q) (o.reorder (by perm_tac))
    have o1' : Owns F (s.parts C.lib C.cls C.z k ++ (libItems C.z k (flagAt past) p q ++ [⟨s.this, .obj, 1⟩])) h1 :=
      o1.reorder (by perm_tac)
    obtain ⟨h3, e3, o3⟩ := freeSetup_owns hC ha o1'
    have fin : ∀ s1 : FftLife, s1.t = s.t → s1.sendbuf = s.sendbuf → s1.recvbuf = s.recvbuf → s1.this = s.this →
        ∃ h', (do
          let (s, h) ← if s1.t.memoryflag ≠ 0 then s1.deallocateSetupMemory C h3 else some (s1, h3)
          h.free (.del s.this)) = some h' ∧ Owns F [] h' := by
      intro s1 et es er eth
      by_cases hm : flagAt past = 0
      · rw [if_neg (by rw [et, I.flag]; simpa using hm)]
        simp only [libItems, hm, ne_eq, not_true_eq_false, if_false, List.nil_append] at o3
        obtain ⟨h', e', o'⟩ := last o3
        exact ⟨h', by simpa [eth] using e', o'⟩
      · rw [if_pos (by rw [et, I.flag]; exact hm)]
        obtain ⟨g1, g2⟩ := ha.lib hm
        obtain ⟨hs1, hs2⟩ := hbufs hm
        simp only [libItems, ne_eq, hm, not_false_eq_true, if_true] at o3
        obtain ⟨h4, e4, o4⟩ := deallocateSetupMemory_owns hC (s := s1) (by rw [es, hs1]; exact g1)
          (by rw [er, hs2]; exact g2) (by rw [es, er, hs1, hs2]; exact o3)
        obtain ⟨h', e', o'⟩ := last o4
        refine ⟨h', ?_, o'⟩
        rw [e4]
        simpa [eth] using e'
    cases hc : C.cls with
    | d3 =>
      obtain ⟨h', e', o'⟩ := fin { s with setupflag := false, fwd := List.replicate C.cls.npairs none
                                          inv := List.replicate C.cls.npairs none, ffts := none } rfl rfl rfl rfl
      refine ⟨h', ?_, o'⟩
      unfold FftLife.destroy
      simp only [hC, e1, ha.setupflag, if_true, Option.bind_eq_bind, Option.bind_some]
      rw [hc]
      simp only [FftLife.deallocateSetup, e3, Option.bind_eq_bind, Option.bind_some]
      exact e'
    | d2 =>
      obtain ⟨h', e', o'⟩ := fin s rfl rfl rfl rfl
      refine ⟨h', ?_, o'⟩
      unfold FftLife.destroy
      simp only [hC, e1, Option.bind_eq_bind, Option.bind_some]
      rw [hc]
      simp only [e3, Option.map_some, Option.bind_some]
      exact e'

end FftMpi
