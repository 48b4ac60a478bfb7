import Verif.LifecycleLemmas

/-!
# Invariant of the life cycle of `FFT3d` and `FFT2d`
-/

namespace FftMpi

variable {A : Type}

/-- Numbers that `setup` can produce, with buffers that suffice for all remaps. -/
structure FSkel.OK (cls : Cls) (k : FSkel) : Prop where
  fwdLen : k.fwd.length = cls.npairs
  invLen : k.inv.length = cls.npairs
  fwd : PairsFit k.sendsize k.recvsize k.fwd
  inv : PairsFit k.sendsize k.recvsize k.inv
  fftsize : 0 ≤ k.fftsize
  sendsize : 0 ≤ k.sendsize
  recvsize : 0 ≤ k.recvsize

/-- The library's buffers. -/
def libItems (z : TypeSizes) (k : FSkel) (mf : Int) (p q : Ptr) : List Item :=
  if mf ≠ 0 then [⟨p, .mem, k.sendsize * z.scalar⟩, ⟨q, .mem, k.recvsize * z.scalar⟩] else []

namespace FftLife

/-- What the object owns from the constructor on. -/
def base (z : TypeSizes) (s : FftLife) : List Item :=
  [⟨s.memory, .obj, 1⟩, ⟨s.error, .obj, 1⟩, ⟨s.primes, .arr, 3 * z.int⟩, ⟨s.factors, .arr, 50 * z.int⟩,
   ⟨s.this, .obj, 1⟩]

structure Based (s : FftLife) : Prop where
  this : ∃ n, s.this = .blk n
  memory : ∃ n, s.memory = .blk n
  error : ∃ n, s.error = .blk n
  primes : ∃ n, s.primes = .blk n
  factors : ∃ n, s.factors = .blk n

/-- Before `setup`. -/
structure Idle (cls : Cls) (s : FftLife) : Prop where
  setupflag : s.setupflag = false
  setupMemoryFlag : s.setupMemoryFlag = false
  fwd : s.fwd = List.replicate cls.npairs none
  inv : s.inv = List.replicate cls.npairs none
  ffts : s.ffts = none
  sendbuf : s.sendbuf = .null
  recvbuf : s.recvbuf = .null

/-- The buffers that the remaps will get. -/
def BufsOK (z : TypeSizes) (k : FSkel) (mf : Int) (p q : Ptr) (s : FftLife) : Prop :=
  (mf ≠ 0 ∧ s.sendbuf = p ∧ s.recvbuf = q) ∨
    ∃ a b, s.sendbuf = .user a ∧ s.recvbuf = .user b ∧ k.sendsize * z.scalar ≤ a ∧ k.recvsize * z.scalar ≤ b

/-- After `setup` with `memoryflag = mf`; `p` and `q` are the buffers of the library, if any. -/
structure Active (lib : Option Package) (cls : Cls) (z : TypeSizes) (k : FSkel) (mf : Int) (p q : Ptr) (s : FftLife) : Prop where
  setupflag : s.setupflag = true
  skel : s.skel = some k
  fwd : PairsReady z k.fwd s.fwd
  inv : PairsReady z k.inv s.inv
  ffts : ∃ fs, s.ffts = some fs ∧ FftsReady lib cls k fs
  lib : mf ≠ 0 → Got p (k.sendsize * z.scalar) ∧ Got q (k.recvsize * z.scalar)
  bufs : s.setupMemoryFlag = true → s.BufsOK z k mf p q
  nobufs : s.setupMemoryFlag = false → mf = 0 ∧ s.sendbuf = .null ∧ s.recvbuf = .null

/-- What belongs to the remaps and 1d FFTs. -/
def parts (lib : Option Package) (cls : Cls) (z : TypeSizes) (k : FSkel) (s : FftLife) : List Item :=
  pairsItems z k.fwd s.fwd ++ pairsItems z k.inv s.inv ++ fftItems lib cls k (s.ffts.getD [])

theorem create_idle (cls : Cls) (z : TypeSizes) (h : Heap) : (create cls z h).1.Idle cls ∧ (create cls z h).1.Based :=
  ⟨⟨rfl, rfl, rfl, rfl, rfl, rfl, rfl⟩, ⟨_, rfl⟩, ⟨_, rfl⟩, ⟨_, rfl⟩, ⟨_, rfl⟩, ⟨_, rfl⟩⟩

theorem create_owns (cls : Cls) {z : TypeSizes} {F : List Blk} {xs : List Item} {h : Heap} (o : Owns F xs h) :
    Owns F ((create cls z h).1.base z ++ xs) (create cls z h).2 := by
  have := ((((o.new .obj 1).new .obj 1).new .obj 1).new .arr (3 * z.int)).new .arr (50 * z.int)
  refine this.reorder ?_
  simp only [create, base]
  perm_tac

/-- `setup` on an object that is not set up. -/
theorem setup_owns {C : Cfg A} (hz : C.z.Pos) {a : A} {s : FftLife} {k : FSkel} (hi : s.Idle C.cls)
    (hp : C.plan a s.t.st = some (.ok k)) (hk : k.OK C.cls) {F : List Blk} {xs : List Item} {h : Heap}
    (o : Owns F xs h) :
    ∃ fwd inv fs p q mu h', s.setup C a h = some (.ok
        ({ s with setupflag := true, setupMemoryFlag := decide (s.t.memoryflag ≠ 0), fwd, inv, ffts := some fs
                  sendbuf := p, recvbuf := q, memusage := mu, skel := some k }, h')) ∧
      Active C.lib C.cls C.z k s.t.memoryflag p q
        { s with setupflag := true, setupMemoryFlag := decide (s.t.memoryflag ≠ 0), fwd, inv, ffts := some fs
                 sendbuf := p, recvbuf := q, memusage := mu, skel := some k } ∧
      Owns F ((pairsItems C.z k.fwd fwd ++ pairsItems C.z k.inv inv ++ fftItems C.lib C.cls k fs) ++
        (libItems C.z k s.t.memoryflag p q ++ xs)) h' ∧
      mu = (if s.t.memoryflag ≠ 0 then k.sendsize * C.z.scalar + k.recvsize * C.z.scalar else 0) +
        (pairsMemory fwd + pairsMemory inv) := by
  obtain ⟨fwd, h1, e1, r1, o1⟩ := createPairs_owns hz s.t.st.packflag hk.fwd o
  obtain ⟨inv, h2, e2, r2, o2⟩ := createPairs_owns hz s.t.st.packflag hk.inv o1
  rw [hk.fwdLen, ← hi.fwd] at e1
  rw [hk.invLen, ← hi.inv] at e2
  obtain ⟨r3, o3⟩ := setupFfts_owns C.lib C.cls k o2
  have nn : ∀ m : Int, 0 ≤ m → 0 ≤ m * C.z.scalar := fun m hm => mul_nonneg hm hz.scalar.le
  by_cases hm : s.t.memoryflag = 0
  · refine ⟨fwd, inv, (setupFftsOf C.lib C.cls k h2).1, .null, .null, _, (setupFftsOf C.lib C.cls k h2).2, ?_, ?_, ?_, rfl⟩
    · unfold setup
      rw [if_neg (show ¬ (C.cls = .d3 ∧ s.setupflag = true) by rw [hi.setupflag]; simp)]
      simp only [hp, e1, e2, Option.bind_eq_bind, Option.bind_some, Heap.mallocIf, hm, ne_eq, not_true_eq_false,
        false_and, if_false, hi.sendbuf, hi.recvbuf, hi.setupMemoryFlag, decide_false]
    · refine ⟨rfl, rfl, r1, r2, ⟨_, rfl, r3⟩, fun h => absurd hm h, ?_, fun _ => ⟨hm, rfl, rfl⟩⟩
      intro h
      simp [hm] at h
    · refine o3.reorder ?_
      simp only [libItems, hm, ne_eq, not_true_eq_false, if_false]
      perm_tac
  · obtain ⟨p, h4, e4, o4, g4⟩ := o3.mallocIf (s.t.memoryflag ≠ 0 ∧ k.sendsize ≠ 0) (p := s.sendbuf)
      (n := k.sendsize * C.z.scalar) (fun _ => nn _ hk.sendsize) hi.sendbuf (by
        intro hn
        have : k.sendsize = 0 := by
          by_contra h
          exact hn ⟨hm, h⟩
        rw [this, zero_mul])
    obtain ⟨q, h5, e5, o5, g5⟩ := o4.mallocIf (s.t.memoryflag ≠ 0 ∧ k.recvsize ≠ 0) (p := s.recvbuf)
      (n := k.recvsize * C.z.scalar) (fun _ => nn _ hk.recvsize) hi.recvbuf (by
        intro hn
        have : k.recvsize = 0 := by
          by_contra h
          exact hn ⟨hm, h⟩
        rw [this, zero_mul])
    refine ⟨fwd, inv, (setupFftsOf C.lib C.cls k h2).1, p, q, _, h5, ?_, ?_, ?_, rfl⟩
    · unfold setup
      rw [if_neg (show ¬ (C.cls = .d3 ∧ s.setupflag = true) by rw [hi.setupflag]; simp)]
      simp only [hp, e1, e2, e4, e5, Option.bind_eq_bind, Option.bind_some]
      rw [if_pos hm, show decide (s.t.memoryflag ≠ 0) = true by simp [hm]]
    · refine ⟨rfl, rfl, r1, r2, ⟨_, rfl, r3⟩, fun _ => ⟨g4, g5⟩, fun _ => Or.inl ⟨hm, rfl, rfl⟩, ?_⟩
      intro h
      simp [hm] at h
    · refine o5.reorder ?_
      simp only [libItems, hm, ne_eq, not_false_eq_true, if_true]
      perm_tac

theorem freeSetup_owns {C : Cfg A} (hC : C.strict = false) {k : FSkel} {mf : Int} {p q : Ptr} {s : FftLife}
    (ha : s.Active C.lib C.cls C.z k mf p q) {F : List Blk} {xs : List Item} {h : Heap}
    (o : Owns F (s.parts C.lib C.cls C.z k ++ xs) h) :
    ∃ h', s.freeSetup C h = some h' ∧ Owns F xs h' := by
  obtain ⟨fs, ef, hf⟩ := ha.ffts
  unfold parts at o
  simp only [ef, Option.getD_some, List.append_assoc] at o
  obtain ⟨h1, e1, o1⟩ := destroyPairs_owns ha.fwd o
  obtain ⟨h2, e2, o2⟩ := destroyPairs_owns ha.inv o1
  obtain ⟨gs, h3, e3, e4, o3⟩ := freeFfts_owns hf s.memory o2
  refine ⟨h3, ?_, o3⟩
  unfold freeSetup
  simp only [hC, e1, e2, ha.skel, ef, e3, e4, Option.bind_eq_bind, Option.bind_some]

theorem deallocateSetup_owns {C : Cfg A} (hC : C.strict = false) {k : FSkel} {mf : Int} {p q : Ptr} {s : FftLife}
    (ha : s.Active C.lib C.cls C.z k mf p q) {F : List Blk} {xs : List Item} {h : Heap}
    (o : Owns F (s.parts C.lib C.cls C.z k ++ xs) h) :
    ∃ h', s.deallocateSetup C h =
        some ({ s with setupflag := false, fwd := List.replicate C.cls.npairs none
                       inv := List.replicate C.cls.npairs none, ffts := none }, h') ∧ Owns F xs h' := by
  obtain ⟨h', e, o'⟩ := freeSetup_owns hC ha o
  refine ⟨h', ?_, o'⟩
  unfold deallocateSetup
  simp only [e, Option.bind_eq_bind, Option.bind_some]

theorem deallocateSetupMemory_owns {C : Cfg A} (hC : C.strict = false) {s : FftLife} {m n : Int}
    (g1 : Got s.sendbuf m) (g2 : Got s.recvbuf n) {F : List Blk} {xs : List Item} {h : Heap}
    (o : Owns F ([⟨s.sendbuf, .mem, m⟩, ⟨s.recvbuf, .mem, n⟩] ++ xs) h) :
    ∃ h', s.deallocateSetupMemory C h =
        some ({ s with setupMemoryFlag := false, sendbuf := .null, recvbuf := .null }, h') ∧ Owns F xs h' := by
  obtain ⟨h', e, o'⟩ := Owns.freeAll (memory := s.memory) [.sfree s.sendbuf, .sfree s.recvbuf] _ _ o
    (.cons ⟨rfl, rfl, g1.notUser⟩ (.cons ⟨rfl, rfl, g2.notUser⟩ .nil))
  refine ⟨h', ?_, o'⟩
  unfold deallocateSetupMemory
  simp only [hC, e, Option.bind_eq_bind, Option.bind_some]

/-! ## Use -/

/-- The same object but for what `remap` remembers. -/
structure Like (lib : Option Package) (cls : Cls) (z : TypeSizes) (k : FSkel) (mf : Int) (p q : Ptr) (s s' : FftLife) : Prop where
  eq : ∃ fwd inv, s' = { s with fwd, inv }
  active : s'.Active lib cls z k mf p q
  parts : s'.parts lib cls z k = s.parts lib cls z k

theorem Like.refl {lib : Option Package} {cls : Cls} {z : TypeSizes} {k : FSkel} {mf : Int} {p q : Ptr} {s : FftLife}
    (h : s.Active lib cls z k mf p q) : Like lib cls z k mf p q s s := ⟨⟨_, _, rfl⟩, h, rfl⟩

theorem Like.trans {lib : Option Package} {cls : Cls} {z : TypeSizes} {k : FSkel} {mf : Int} {p q : Ptr} {s s' s'' : FftLife}
    (h : Like lib cls z k mf p q s s') (h' : Like lib cls z k mf p q s' s'') : Like lib cls z k mf p q s s'' := by
  obtain ⟨⟨a, b, e⟩, -, h1⟩ := h
  obtain ⟨⟨a', b', e'⟩, h2, h3⟩ := h'
  exact ⟨⟨a', b', by rw [e', e]⟩, h2, h3.trans h1⟩

theorem Active.usable {lib : Option Package} {cls : Cls} {z : TypeSizes} {k : FSkel} {mf : Int} {p q : Ptr} {s : FftLife}
    (ha : s.Active lib cls z k mf p q) (hm : s.setupMemoryFlag = true) {F : List Blk} {xs : List Item} {h : Heap}
    (o : Owns F (s.parts lib cls z k ++ (libItems z k mf p q ++ xs)) h) :
    h.usable s.sendbuf (k.sendsize * z.scalar) = true ∧ h.usable s.recvbuf (k.recvsize * z.scalar) = true := by
  rcases ha.bufs hm with ⟨h0, h1, h2⟩ | ⟨a, b, h1, h2, h3, h4⟩
  · obtain ⟨g1, g2⟩ := ha.lib h0
    rw [h1, h2]
    unfold libItems at o
    rw [if_pos h0] at o
    exact ⟨o.usable (x := ⟨p, .mem, k.sendsize * z.scalar⟩) (by simp) rfl g1 le_rfl,
      o.usable (x := ⟨q, .mem, k.recvsize * z.scalar⟩) (by simp) rfl g2 le_rfl⟩
  · rw [h1, h2]
    simp [Heap.usable, h3, h4]

theorem remaps_ok {lib : Option Package} {cls : Cls} {z : TypeSizes} (hz : z.Pos) {k : FSkel} (hk : k.OK cls) {mf : Int} {p q : Ptr}
    {s : FftLife} (ha : s.Active lib cls z k mf p q) (hm : s.setupMemoryFlag = true) (fw : Bool)
    {F : List Blk} {xs : List Item} {h : Heap} (o : Owns F (s.parts lib cls z k ++ (libItems z k mf p q ++ xs)) h) :
    ∃ s', s.remaps z fw h = some (.ok s') ∧ Like lib cls z k mf p q s s' := by
  obtain ⟨hu, hv⟩ := ha.usable hm o
  unfold remaps
  unfold parts at o
  cases fw with
  | true =>
    obtain ⟨ps, e, h1, h2, -⟩ := usePairs_ok hz ha.fwd hk.fwd hu hv (xs := pairsItems z k.inv s.inv ++
      fftItems lib cls k (s.ffts.getD []) ++ (libItems z k mf p q ++ xs)) (o.reorder (by perm_tac))
    simp only [if_true, e]
    refine ⟨_, rfl, ⟨ps, s.inv, rfl⟩, ⟨ha.setupflag, ha.skel, h1, ha.inv, ha.ffts, ha.lib, ha.bufs, ha.nobufs⟩, ?_⟩
    simp only [FftLife.parts, h2]
  | false =>
    obtain ⟨ps, e, h1, h2, -⟩ := usePairs_ok hz ha.inv hk.inv hu hv (xs := pairsItems z k.fwd s.fwd ++
      fftItems lib cls k (s.ffts.getD []) ++ (libItems z k mf p q ++ xs)) (o.reorder (by perm_tac))
    simp only [Bool.false_eq_true, if_false, e]
    refine ⟨_, rfl, ⟨s.fwd, ps, rfl⟩, ⟨ha.setupflag, ha.skel, ha.fwd, h1, ha.ffts, ha.lib, ha.bufs, ha.nobufs⟩, ?_⟩
    simp only [FftLife.parts, h2]

/-- Whether a method needs the buffers. -/
def Use.needs : Use → Bool
  | .only1d _ => false
  | _ => true

theorem use_eq {C : Cfg A} {k : FSkel} {mf : Int} {p q : Ptr} {s : FftLife} (ha : s.Active C.lib C.cls C.z k mf p q)
    (u : Use) (hm : u.needs = true → s.setupMemoryFlag = true) (h : Heap) :
    s.use C u h = s.useData C u k h := by
  unfold use
  rw [if_neg (show ¬ s.setupflag = false by simp [ha.setupflag])]
  cases u with
  | only1d flag => simp [ha.skel]
  | _ => simp [hm rfl, ha.skel]

/-- The methods find everything that they need. -/
theorem use_ok {C : Cfg A} (hz : C.z.Pos) {k : FSkel} (hk : k.OK C.cls) {mf : Int} {p q : Ptr}
    {s : FftLife} (ha : s.Active C.lib C.cls C.z k mf p q) (u : Use) (hm : u.needs = true → s.setupMemoryFlag = true)
    {F : List Blk} {xs : List Item} {h : Heap}
    (o : Owns F (s.parts C.lib C.cls C.z k ++ (libItems C.z k mf p q ++ xs)) h) :
    ∃ s', s.use C u h = some (.ok s') ∧ Like C.lib C.cls C.z k mf p q s s' := by
  obtain ⟨fs, ef, hf⟩ := ha.ffts
  have of : ∀ flag, useFfts C.lib flag fs h = some () := by
    intro flag
    refine useFfts_ok hf flag (xs := pairsItems C.z k.fwd s.fwd ++ pairsItems C.z k.inv s.inv ++
      (libItems C.z k mf p q ++ xs)) (o.reorder ?_)
    unfold parts
    simp only [ef, Option.getD_some]
    perm_tac
  rw [use_eq ha u hm]
  cases u with
  | compute flag =>
    obtain ⟨s', e, hl⟩ := remaps_ok hz hk ha (hm rfl) (decide (flag = 1) || k.same) o
    refine ⟨s', ?_, hl⟩
    by_cases hr : s.remaponly = 0
    · simp only [useData, hr, ef, of, e, Option.bind_eq_bind, Option.bind_some, if_true]
    · simp only [useData, hr, e, if_false]
  | only1d flag =>
    refine ⟨s, ?_, .refl ha⟩
    simp only [useData, ef, of, Option.bind_eq_bind, Option.bind_some]
  | onlyRemaps flag =>
    obtain ⟨s', e, hl⟩ := remaps_ok hz hk ha (hm rfl) (decide (flag = 1) || k.same) o
    exact ⟨s', e, hl⟩
  | onlyOneRemap flag which =>
    obtain ⟨hu, hv⟩ := ha.usable (hm rfl) o
    simp only [useData]
    unfold parts at o
    cases select C.cls (decide (flag = 1) || k.same) which with
    | none => exact ⟨s, rfl, .refl ha⟩
    | some i =>
      simp only
      cases (decide (flag = 1) || k.same) with
      | true =>
        simp only [if_true]
        split
        · rename_i x hx
          obtain ⟨p', e, h1, h2⟩ := useOne_ok hz ha.fwd hk.fwd hu hv (xs := pairsItems C.z k.inv s.inv ++
            fftItems C.lib C.cls k (s.ffts.getD []) ++ (libItems C.z k mf p q ++ xs)) (o.reorder (by perm_tac)) hx
          simp only [e]
          refine ⟨_, rfl, ⟨_, s.inv, rfl⟩, ⟨ha.setupflag, ha.skel, h1, ha.inv, ha.ffts, ha.lib, ha.bufs, ha.nobufs⟩, ?_⟩
          simp only [FftLife.parts, h2]
        · exact ⟨s, rfl, .refl ha⟩
      | false =>
        simp only [Bool.false_eq_true, if_false]
        split
        · rename_i x hx
          obtain ⟨p', e, h1, h2⟩ := useOne_ok hz ha.inv hk.inv hu hv (xs := pairsItems C.z k.fwd s.fwd ++
            fftItems C.lib C.cls k (s.ffts.getD []) ++ (libItems C.z k mf p q ++ xs)) (o.reorder (by perm_tac)) hx
          simp only [e]
          refine ⟨_, rfl, ⟨s.fwd, _, rfl⟩, ⟨ha.setupflag, ha.skel, ha.fwd, h1, ha.ffts, ha.lib, ha.bufs, ha.nobufs⟩, ?_⟩
          simp only [FftLife.parts, h2]
        · exact ⟨s, rfl, .refl ha⟩

theorem uses_ok {C : Cfg A} (hz : C.z.Pos) {k : FSkel} (hk : k.OK C.cls) {mf : Int} {p q : Ptr}
    {F : List Blk} {xs : List Item} {h : Heap} : ∀ (us : List Use) {s : FftLife}, s.Active C.lib C.cls C.z k mf p q →
    s.setupMemoryFlag = true → Owns F (s.parts C.lib C.cls C.z k ++ (libItems C.z k mf p q ++ xs)) h →
    ∃ s', s.uses C us h = some (.ok s') ∧ Like C.lib C.cls C.z k mf p q s s'
  | [], s, ha, _, _ => ⟨s, rfl, .refl ha⟩
  | u :: us, s, ha, hm, o => by
    obtain ⟨s1, e1, l1⟩ := use_ok hz hk ha u (fun _ => hm) o
    obtain ⟨x, y, e⟩ := l1.eq
    obtain ⟨s2, e2, l2⟩ := uses_ok hz hk us l1.active (by rw [e]; exact hm) (by rw [l1.parts]; exact o)
    refine ⟨s2, ?_, l1.trans l2⟩
    simp only [uses, e1, e2]

end FftLife

end FftMpi
