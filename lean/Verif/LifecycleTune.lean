import Verif.LifecycleInv
import Verif.PropsTune

/-!
# The life cycle during `tune`
-/

namespace FftMpi

variable {A : Type}

/-- `setup` with the arguments `a` succeeds for all documented settings, and the buffers suffice. -/
def PlanGood (C : Cfg A) (a : A) : Prop :=
  ∀ st, GoodSettings st → ∃ k, C.plan a st = some (.ok k) ∧ k.OK C.cls

/-- The settings of all trials of `tune` are documented ones if those of the caller are. -/
theorem tune_good {fs : Settings → Int} {root own : Clock} {sf : Bool} {t : TuneArgs} {s r : TuneSt}
    (h : tune fs root own sf t s = some (.ok r)) (hbig : ∀ k, (own.run k).tfft < tuneBIG)
    (hs : GoodSettings s.st) :
    GoodSettings r.st ∧ r.memoryflag = s.memoryflag ∧ ∀ q ∈ r.runs, GoodSettings q.st ∧ q.memoryflag = 1 := by
  obtain ⟨-, b, -, R⟩ := tune_some_report h hbig
  obtain ⟨-, -, hce, hps⟩ := tunePlan_facts b.nruns s.st
  have hr : GoodSettings r.st := by
    rcases R.good with h | h
    · exact h
    · rw [h.1]; exact hs
  refine ⟨hr, R.memoryflag, ?_⟩
  intro q hq
  obtain ⟨i, hi, rfl⟩ := List.mem_iff_getElem.1 hq
  have hl := R.len
  cases i with
  | zero =>
    obtain ⟨d, -, e⟩ := R.first
    rw [List.getElem?_eq_getElem hi] at e
    rw [Option.some.inj e]
    exact ⟨hs, rfl⟩
  | succ i =>
    obtain ⟨st, hst⟩ : ∃ st, ((tunePlan b.nruns s.st).2.1.map (fun x => (⟨x.1, x.2, 2⟩ : Settings)) ++
        (tunePlan b.nruns s.st).2.2.map fun x => ⟨r.st.collective, r.st.exchange, x⟩)[i]? = some st := by
      refine ⟨_, List.getElem?_eq_getElem ?_⟩
      rw [List.length_append, List.length_map, List.length_map]
      omega
    obtain ⟨d, -, e⟩ := R.rest i st hst
    rw [show 1 + i = i + 1 by omega, List.getElem?_eq_getElem hi] at e
    rw [Option.some.inj e]
    refine ⟨?_, rfl⟩
    have hm := List.mem_of_getElem? hst
    rw [List.mem_append, List.mem_map, List.mem_map] at hm
    rcases hm with ⟨x, hx, rfl⟩ | ⟨x, hx, rfl⟩
    · exact ⟨(hce x hx).1, (hce x hx).2, show (0:Int) ≤ 2 ∧ (2:Int) ≤ 2 by decide⟩
    · exact ⟨hr.1, hr.2.1, hps x hx⟩

namespace FftLife

theorem growData_owns {z : TypeSizes} (hz : z.Pos) {n m : Int} (hm : 0 ≤ m) {data : Ptr}
    (g : Got data (m * 2 * z.scalar)) {F : List Blk} {xs : List Item} {h : Heap}
    (o : Owns F (⟨data, .mem, m * 2 * z.scalar⟩ :: xs) h) :
    ∃ data' m' h', growData z n data m h = some (data', m', h') ∧ 0 ≤ m' ∧ n ≤ m' ∧ Got data' (m' * 2 * z.scalar) ∧
      Owns F (⟨data', .mem, m' * 2 * z.scalar⟩ :: xs) h' := by
  unfold growData
  by_cases hn : n > m
  · rw [if_pos hn]
    obtain ⟨h1, e1, o1⟩ := o.free (f := .sfree data) rfl rfl g.notUser
    obtain ⟨p, h2, e2, o2, g2⟩ := o1.malloc (n := n * 2 * z.scalar) (mul_nonneg (by omega) hz.scalar.le)
    have hu : h2.usable p (2 * n * z.scalar) = true := by
      refine o2.usable (x := ⟨p, .mem, n * 2 * z.scalar⟩) (by simp) rfl g2 ?_
      rw [mul_comm 2 n]
    refine ⟨p, n, h2, ?_, by omega, le_rfl, g2, o2⟩
    simp only [Heap.srealloc, e1, e2, Option.bind_eq_bind, Option.bind_some, hu, if_true]
  · rw [if_neg hn]
    exact ⟨data, m, h, rfl, hm, by omega, g, o⟩

/-- The trials leave the object as it was, but for the settings, and no memory but `data`. -/
theorem trials_owns {C : Cfg A} (hC : C.strict = false) (hz : C.z.Pos) {a : A} (ha : PlanGood C a) (flag : Int) {F : List Blk}
    {xs : List Item} : ∀ (qs : List Trial), (∀ q ∈ qs, GoodSettings q.st ∧ q.memoryflag = 1) →
    ∀ {s : FftLife} {data : Ptr} {m : Int} {h : Heap}, s.Idle C.cls → 0 ≤ m → Got data (m * 2 * C.z.scalar) →
    Owns F (⟨data, .mem, m * 2 * C.z.scalar⟩ :: xs) h →
    ∃ s' data' m' h', s.trials C a flag qs data m h = some (.ok (s', data', h')) ∧ s'.Idle C.cls ∧
      Got data' m' ∧ Owns F (⟨data', .mem, m'⟩ :: xs) h' ∧
      ∃ t mu sk, s' = { s with t, memusage := mu, skel := sk }
  | [], _, s, data, m, h, hi, hm, g, o => ⟨s, data, _, h, rfl, hi, g, o, s.t, s.memusage, s.skel, rfl⟩
  | q :: qs, hq, s, data, m, h, hi, hm, g, o => by
    obtain ⟨hq1, hq2⟩ := hq q (by simp)
    obtain ⟨qst, qmf, qn, qt, qf, qd⟩ := q
    dsimp only at hq1 hq2
    subst hq2
    obtain ⟨k, hk, kok⟩ := ha _ hq1
    have hi' : Idle C.cls { s with t := { s.t with st := qst, memoryflag := 1 } } :=
      ⟨hi.setupflag, hi.setupMemoryFlag, hi.fwd, hi.inv, hi.ffts, hi.sendbuf, hi.recvbuf⟩
    obtain ⟨fwd, inv, fs, p, pq, mu, h1, e1, act, o1, -⟩ := setup_owns hz hi' hk kok o
    obtain ⟨d2, m2, h2, e2, hm2, hkm, g2, o2⟩ := growData_owns hz (n := k.fftsize) hm g
      (xs := (pairsItems C.z k.fwd fwd ++ pairsItems C.z k.inv inv ++ fftItems C.lib C.cls k fs) ++
        (libItems C.z k 1 p pq ++ xs)) (o1.reorder (by perm_tac))
    have hu : h2.usable d2 (2 * k.fftsize * C.z.scalar) = true := by
      refine o2.usable (x := ⟨d2, .mem, m2 * 2 * C.z.scalar⟩) (by simp) rfl g2 ?_
      rw [mul_comm 2]
      exact mul_le_mul_of_nonneg_right (by omega) hz.scalar.le
    obtain ⟨s3, e3, l3⟩ := uses_ok hz kok (trialUses C.cls qn flag qt) act (by simp)
      (xs := ⟨d2, .mem, m2 * 2 * C.z.scalar⟩ :: xs) (h := h2) (by
        unfold parts
        simp only [Option.getD_some]
        exact o2.reorder (by perm_tac))
    obtain ⟨fwd', inv', e3'⟩ := l3.eq
    have o3 : Owns F (s3.parts C.lib C.cls C.z k ++ (libItems C.z k 1 p pq ++ ⟨d2, .mem, m2 * 2 * C.z.scalar⟩ :: xs)) h2 := by
      rw [l3.parts]
      unfold parts
      simp only [Option.getD_some]
      exact o2.reorder (by perm_tac)
    obtain ⟨h4, e4, o4⟩ := deallocateSetup_owns hC l3.active o3
    have b3 : s3.sendbuf = p ∧ s3.recvbuf = pq ∧ s3.t.memoryflag = 1 := by rw [e3']; exact ⟨rfl, rfl, rfl⟩
    obtain ⟨gp, gq⟩ := act.lib (show (1 : Int) ≠ 0 by decide)
    unfold libItems at o4
    rw [if_pos (show (1 : Int) ≠ 0 by decide)] at o4
    obtain ⟨h5, e5, o5⟩ := deallocateSetupMemory_owns hC
      (s := { s3 with setupflag := false, fwd := List.replicate C.cls.npairs none
                      inv := List.replicate C.cls.npairs none, ffts := none })
      (m := k.sendsize * C.z.scalar) (n := k.recvsize * C.z.scalar) (by rw [b3.1]; exact gp) (by rw [b3.2.1]; exact gq)
      (h := h4) (xs := ⟨d2, .mem, m2 * 2 * C.z.scalar⟩ :: xs) (by
        simp only [b3.1, b3.2.1]
        exact o4)
    obtain ⟨s6, d6, m6, h6, e6, i6, g6, o6, t6, mu6, sk6, eq6⟩ := trials_owns hC hz ha flag qs
      (fun q' hq' => hq q' (List.mem_cons_of_mem _ hq')) (s :=
        { s3 with setupflag := false, fwd := List.replicate C.cls.npairs none
                  inv := List.replicate C.cls.npairs none, ffts := none
                  setupMemoryFlag := false, sendbuf := .null, recvbuf := .null })
      ⟨rfl, rfl, rfl, rfl, rfl, rfl, rfl⟩ hm2 g2 o5
    refine ⟨s6, d6, m6, h6, ?_, i6, g6, o6, t6, mu6, sk6, ?_⟩
    · have hmf : ({ s3 with setupflag := false, fwd := List.replicate C.cls.npairs none
                            inv := List.replicate C.cls.npairs none, ffts := none } : FftLife).t.memoryflag ≠ 0 := by
        show s3.t.memoryflag ≠ 0
        rw [b3.2.2]; decide
      simp only [trials, e1, e2, hu, e3, e4, Option.bind_eq_bind, Option.bind_some, if_true]
      rw [if_pos hmf, e5]
      simp only [Option.bind_some]
      exact e6
    · rw [eq6, e3']
      simp only [hi.setupflag, hi.setupMemoryFlag, hi.fwd, hi.inv, hi.ffts, hi.sendbuf, hi.recvbuf]

/-- The result of `setup`, in the form in which it is used below. -/
structure Done (C : Cfg A) (k : FSkel) (F : List Blk) (xs : List Item) (s s' : FftLife) (h' : Heap) : Prop where
  eq : ∃ t mf fwd inv fs p q mu, s' = { s with t, setupflag := true, setupMemoryFlag := mf, fwd, inv, ffts := some fs
                                               sendbuf := p, recvbuf := q, memusage := mu, skel := some k }
  flag : s'.setupMemoryFlag = decide (s'.t.memoryflag ≠ 0)
  active : ∃ p q, s'.Active C.lib C.cls C.z k s'.t.memoryflag p q ∧
    Owns F (s'.parts C.lib C.cls C.z k ++ (libItems C.z k s'.t.memoryflag p q ++ xs)) h' ∧
    (s'.t.memoryflag ≠ 0 → s'.sendbuf = p ∧ s'.recvbuf = q)

theorem setup_done {C : Cfg A} (hz : C.z.Pos) {a : A} {s : FftLife} {k : FSkel} (hi : s.Idle C.cls)
    (hp : C.plan a s.t.st = some (.ok k)) (hk : k.OK C.cls) {F : List Blk} {xs : List Item} {h : Heap}
    (o : Owns F xs h) :
    ∃ s' h', s.setup C a h = some (.ok (s', h')) ∧ Done C k F xs s s' h' ∧ s'.t = s.t := by
  obtain ⟨fwd, inv, fs, p, q, mu, h', e, act, o', -⟩ := setup_owns hz hi hp hk o
  refine ⟨_, h', e, ⟨⟨_, _, _, _, _, _, _, _, rfl⟩, rfl, p, q, act, ?_, fun _ => ⟨rfl, rfl⟩⟩, rfl⟩
  unfold parts
  simp only [Option.getD_some]
  exact o'

/-- `tune` on an object that is not set up. -/
theorem tune_done {C : Cfg A} (hC : C.strict = false) (hz : C.z.Pos) {a : A} (ha : PlanGood C a) {s : FftLife}
    (hi : s.Idle C.cls) (hs : GoodSettings s.t.st)
    {t : TuneArgs} {root own : Clock} (hc : tuneCheck false t = none)
    {r : TuneSt} (hr : FftMpi.tune (planSize C.plan a) root own false t s.t = some (.ok r))
    (hbig : ∀ k, (own.run k).tfft < tuneBIG) {F : List Blk} {xs : List Item} {h : Heap} (o : Owns F xs h) :
    ∃ k s' h', s.tune C a t root own h = some (.ok (s', h')) ∧ k.OK C.cls ∧ Done C k F xs s s' h' ∧ s'.t = r ∧
      C.plan a r.st = some (.ok k) := by
  obtain ⟨gr, -, gq⟩ := tune_good hr hbig hs
  have o0 : Owns F (⟨.null, .mem, 0 * 2 * C.z.scalar⟩ :: xs) h := ⟨o.perm, o.nodup, o.below⟩
  obtain ⟨s1, d1, m1, h1, e1, i1, g1, o1, t1, mu1, sk1, eq1⟩ := trials_owns hC hz ha t.flag r.runs gq hi le_rfl
    (Or.inl ⟨rfl, by ring⟩) o0
  obtain ⟨h2, e2, o2⟩ := Owns.freeAll (memory := s1.memory) [.sfree d1] [⟨d1, .mem, m1⟩] xs o1
    (.cons ⟨rfl, rfl, g1.notUser⟩ .nil)
  obtain ⟨k0, hp0, -⟩ := ha _ hs
  obtain ⟨k, hk, kok⟩ := ha _ gr
  obtain ⟨s3, h3, e3, D, et⟩ := setup_done hz (s := { s1 with t := r }) (k := k)
    ⟨i1.setupflag, i1.setupMemoryFlag, i1.fwd, i1.inv, i1.ffts, i1.sendbuf, i1.recvbuf⟩ hk kok o2
  refine ⟨k, s3, h3, ?_, kok, ⟨?_, D.flag, D.active⟩, et, hk⟩
  · unfold tune
    rw [hi.setupflag, hc]
    simp only [hp0, hr, e1, hC, e2, Option.bind_eq_bind, Option.bind_some, e3]
  · obtain ⟨t, mf, fwd, inv, fs, p, q, mu, e⟩ := D.eq
    refine ⟨t, mf, fwd, inv, fs, p, q, mu, ?_⟩
    rw [e, eq1]

end FftLife

end FftMpi
