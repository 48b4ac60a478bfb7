import Verif.Lifecycle
import Verif.RemapLifeLemmas

/-!
# Lemmas on the life cycle of `FFT3d` and `FFT2d`
-/

namespace FftMpi

/-! ## One remap object -/

theorem newRemapOf_owns {z : TypeSizes} (hz : z.Pos) (pk : Int) {k : RSkel} (hk : k.OK) (coll : Bool) {F : List Blk}
    {xs : List Item} {h : Heap} (o : Owns F xs h) :
    ∃ r h', newRemapOf z pk k coll h = some (r, h') ∧ r.Ready z k 0 ∧ r.Based ∧ Owns F (r.items z k 0 ++ xs) h' ∧
      r.memusage = remapMemusage z k 0 (if coll then 1 else 0) := by
  obtain ⟨r, h', e, hr, o', e1, e2, e3, -, -, e4, -⟩ := RemapLife.setup_owns hz hk.sendsize hk.recvsize 0
    (r := { (RemapLife.create h).1 with collective := if coll then 1 else 0, packflag := pk })
    (by constructor <;> rfl) (RemapLife.create_owns o)
  refine ⟨r, h', e, hr, ?_, ?_, e4⟩
  · exact ⟨⟨_, e2⟩, ⟨_, e3⟩, ⟨_, e1⟩⟩
  · refine o'.reorder ?_
    unfold RemapLife.items RemapLife.base
    rw [e1, e2, e3]
    perm_tac

/-! ## Pairs -/

namespace PairLife

def items (z : TypeSizes) (k : PSkel) (p : PairLife) : List Item :=
  ⟨p.ptr, .obj, 1⟩ :: (p.remap.items z k.main 0 ++
    match k.extra, p.extra with
    | some ke, some x => x.items z ke.1 0
    | _, _ => [])

structure Ready (z : TypeSizes) (k : PSkel) (p : PairLife) : Prop where
  ptr : ∃ n, p.ptr = .blk n
  remap : p.remap.Ready z k.main 0
  based : p.remap.Based
  extra : match k.extra, p.extra with
    | none, none => True
    | some ke, some x => x.Ready z ke.1 0 ∧ x.Based
    | _, _ => False

end PairLife

/-- Possible numbers of a pair whose buffers fit into the given sizes. -/
structure PSkel.OK (ssize rsize : Int) (k : PSkel) : Prop where
  main : k.main.OK ∧ k.main.sendsize ≤ ssize ∧ k.main.recvsize ≤ rsize
  extra : ∀ ke, k.extra = some ke → ke.1.OK ∧ ke.1.sendsize ≤ ssize ∧ ke.1.recvsize ≤ rsize

theorem PairLife.create_owns {z : TypeSizes} (hz : z.Pos) (pk : Int) {ss rs : Int} {k : PSkel} (hk : k.OK ss rs)
    {F : List Blk} {xs : List Item} {h : Heap} (o : Owns F xs h) :
    ∃ p h', PairLife.create z pk k h = some (p, h') ∧ p.Ready z k ∧ Owns F (p.items z k ++ xs) h' := by
  obtain ⟨r, h1, e1, hr, hb, o1, -⟩ := newRemapOf_owns hz pk hk.main.1 k.mainColl (o.new .obj 1)
  unfold PairLife.create
  cases hx : k.extra with
  | none =>
    simp only [e1, Option.bind_eq_bind, Option.bind_some]
    refine ⟨_, _, rfl, ⟨⟨_, rfl⟩, hr, hb, by simp [hx]⟩, o1.reorder ?_⟩
    unfold PairLife.items
    simp only [hx]
    perm_tac
  | some ke =>
    obtain ⟨x, h2, e2, hxr, hxb, o2, -⟩ := newRemapOf_owns hz pk (hk.extra ke hx).1 ke.2 o1
    simp only [e1, e2, Option.bind_eq_bind, Option.bind_some]
    refine ⟨_, _, rfl, ⟨⟨_, rfl⟩, hr, hb, by simp [hx, hxr, hxb]⟩, o2.reorder ?_⟩
    unfold PairLife.items
    simp only [hx]
    perm_tac

theorem PairLife.destroy_owns {z : TypeSizes} {k : PSkel} {p : PairLife} (hp : p.Ready z k) {F : List Blk}
    {xs : List Item} {h : Heap} (o : Owns F (p.items z k ++ xs) h) :
    ∃ h', p.destroy false h = some h' ∧ Owns F xs h' := by
  obtain ⟨n, hn⟩ := hp.ptr
  have hu : ∀ m, p.ptr ≠ .user m := by simp [hn]
  have he := hp.extra
  unfold PairLife.destroy
  unfold PairLife.items at o
  cases hx : k.extra with
  | none =>
    cases hy : p.extra with
    | some x => simp [hx, hy] at he
    | none =>
      simp only [hx, List.append_nil] at o
      obtain ⟨h1, e1, o1⟩ := RemapLife.destroy_owns hp.remap hp.based
        (xs := ⟨p.ptr, .obj, 1⟩ :: xs) (o.reorder (by perm_tac))
      obtain ⟨h2, e2, o2⟩ := o1.free (f := .del p.ptr) rfl rfl hu
      simp only [e1, e2, Option.bind_eq_bind, Option.bind_some]
      exact ⟨_, rfl, o2⟩
  | some ke =>
    cases hy : p.extra with
    | none => simp [hx, hy] at he
    | some x =>
      simp only [hx, hy] at o he
      obtain ⟨h1, e1, o1⟩ := RemapLife.destroy_owns hp.remap hp.based
        (xs := x.items z ke.1 0 ++ ⟨p.ptr, .obj, 1⟩ :: xs) (o.reorder (by perm_tac))
      obtain ⟨h3, e3, o3⟩ := RemapLife.destroy_owns he.1 he.2 o1
      obtain ⟨h2, e2, o2⟩ := o3.free (f := .del p.ptr) rfl rfl hu
      simp only [e1, e2, e3, Option.bind_eq_bind, Option.bind_some]
      exact ⟨_, rfl, o2⟩

theorem Heap.usable_mono {h : Heap} {p : Ptr} {m n : Int} (hm : m ≤ n) (hu : h.usable p n = true) :
    h.usable p m = true := by
  unfold Heap.usable at hu ⊢
  rcases le_or_gt n 0 with h0 | h0
  · simp [show m ≤ 0 by omega]
  · simp only [show ¬ n ≤ 0 by omega, decide_false, Bool.false_or] at hu
    rw [Bool.or_eq_true]
    right
    cases p with
    | null => simp at hu
    | user b =>
      simp only [decide_eq_true_eq] at hu ⊢
      omega
    | blk id =>
      simp only at hu ⊢
      split at hu
      · cases hu
      · simp only [Bool.and_eq_true, decide_eq_true_eq] at hu ⊢
        exact ⟨hu.1, by omega⟩

/-- One remap object used with large enough buffers. -/
theorem RemapLife.remap_fit {z : TypeSizes} (hz : z.Pos) {k : RSkel} (hk : k.OK) {ss rs : Int}
    (hs : k.sendsize ≤ ss) (hrs : k.recvsize ≤ rs) {r : RemapLife}
    (hr : r.Ready z k 0) (hb : r.Based) {F : List Blk} {xs : List Item} {h : Heap}
    (o : Owns F (r.items z k 0 ++ xs) h) {us ur : Ptr} (hu : h.usable us (ss * z.scalar) = true)
    (hv : h.usable ur (rs * z.scalar) = true) :
    ∃ r', r.remap z us ur h = some (.ok r') ∧ r'.Ready z k 0 ∧ r'.Based ∧ r'.items z k 0 = r.items z k 0 ∧
      r'.memusage = r.memusage := by
  have o' : Owns F (r.owned z k 0 ++ (r.base ++ xs)) h := by
    refine o.reorder ?_
    unfold RemapLife.items
    perm_tac
  obtain ⟨r', e, er⟩ := RemapLife.remap_ok hz hk hr o' (us := us) (ur := ur) (fun _ =>
    ⟨Heap.usable_mono (mul_le_mul_of_nonneg_right hs hz.scalar.le) hu,
     Heap.usable_mono (mul_le_mul_of_nonneg_right hrs hz.scalar.le) hv⟩)
  obtain ⟨h1, h2⟩ := hr.after us ur
  rw [← er] at h1 h2
  refine ⟨r', e, h1, ?_, h2, ?_⟩
  · rw [er, if_pos rfl]; exact ⟨hb.memory, hb.error, hb.this⟩
  · rw [er, if_pos rfl]

/-- The bytes that a pair reports. -/
def PairLife.mem (p : PairLife) : Int :=
  p.remap.memusage + match p.extra with
    | none => 0
    | some x => x.memusage

theorem PairLife.use_ok {z : TypeSizes} (hz : z.Pos) {ss rs : Int} {k : PSkel} (hk : k.OK ss rs) {p : PairLife}
    (hp : p.Ready z k) {F : List Blk} {xs : List Item} {h : Heap} (o : Owns F (p.items z k ++ xs) h)
    {us ur : Ptr} (hu : h.usable us (ss * z.scalar) = true) (hv : h.usable ur (rs * z.scalar) = true) :
    ∃ p', p.use z us ur h = some (.ok p') ∧ p'.Ready z k ∧ p'.items z k = p.items z k ∧ p'.mem = p.mem := by
  have he := hp.extra
  unfold PairLife.use
  cases hx : k.extra with
  | none =>
    cases hy : p.extra with
    | some x => simp [hx, hy] at he
    | none =>
      have o' : Owns F (p.remap.items z k.main 0 ++ (⟨p.ptr, .obj, 1⟩ :: xs)) h := by
        refine o.reorder ?_
        unfold PairLife.items
        simp only [hx]
        perm_tac
      obtain ⟨r, e, h1, h2, h3, h4⟩ := RemapLife.remap_fit hz hk.main.1 hk.main.2.1 hk.main.2.2 hp.remap hp.based o' hu hv
      simp only [e]
      refine ⟨_, rfl, ⟨hp.ptr, h1, h2, by simp [hx]⟩, ?_, ?_⟩
      · unfold PairLife.items
        simp only [hx, h3]
      · unfold PairLife.mem
        simp only [hy, h4]
  | some ke =>
    cases hy : p.extra with
    | none => simp [hx, hy] at he
    | some x =>
      simp only [hx, hy] at he
      have o' : Owns F (p.remap.items z k.main 0 ++ (x.items z ke.1 0 ++ ⟨p.ptr, .obj, 1⟩ :: xs)) h := by
        refine o.reorder ?_
        unfold PairLife.items
        simp only [hx, hy]
        perm_tac
      obtain ⟨r, e, h1, h2, h3, h4⟩ := RemapLife.remap_fit hz hk.main.1 hk.main.2.1 hk.main.2.2 hp.remap hp.based o' hu hv
      have kx := hk.extra ke hx
      obtain ⟨x', e', h1', h2', h3', h4'⟩ := RemapLife.remap_fit hz kx.1 kx.2.1 kx.2.2 he.1 he.2
        (xs := p.remap.items z k.main 0 ++ ⟨p.ptr, .obj, 1⟩ :: xs) (o'.reorder (by perm_tac)) hu hv
      simp only [e, e']
      refine ⟨_, rfl, ⟨hp.ptr, h1, h2, by simp [hx, h1', h2']⟩, ?_, ?_⟩
      · unfold PairLife.items
        simp only [hx, hy, h3, h3']
      · unfold PairLife.mem
        simp only [hy, h4, h4']

/-! ## Lists of pairs -/

/-- Items of a list of remaps. -/
def pairsItems (z : TypeSizes) : List (Option PSkel) → List (Option PairLife) → List Item
  | some k :: ks, some p :: ps => p.items z k ++ pairsItems z ks ps
  | _ :: ks, _ :: ps => pairsItems z ks ps
  | _, _ => []

/-- One entry is as it should be. -/
def PairOK (z : TypeSizes) : Option PSkel → Option PairLife → Prop
  | none, none => True
  | some k, some p => p.Ready z k
  | _, _ => False

abbrev PairsReady (z : TypeSizes) (ks : List (Option PSkel)) (ps : List (Option PairLife)) : Prop :=
  List.Forall₂ (PairOK z) ks ps

/-- All entries of a list of numbers are possible. -/
def PairsFit (ss rs : Int) (ks : List (Option PSkel)) : Prop := ∀ k, some k ∈ ks → k.OK ss rs

theorem PairsFit.tail {ss rs : Int} {k : Option PSkel} {ks : List (Option PSkel)} (h : PairsFit ss rs (k :: ks)) :
    PairsFit ss rs ks := fun x hx => h x (List.mem_cons_of_mem _ hx)

theorem createPairs_owns {z : TypeSizes} (hz : z.Pos) (pk : Int) {ss rs : Int} : ∀ {ks : List (Option PSkel)},
    PairsFit ss rs ks → ∀ {F : List Blk} {xs : List Item} {h : Heap}, Owns F xs h →
    ∃ ps h', createPairs z pk ks (List.replicate ks.length none) h = some (ps, h') ∧ PairsReady z ks ps ∧
      Owns F (pairsItems z ks ps ++ xs) h'
  | [], _, F, xs, h, o => ⟨[], h, rfl, .nil, o⟩
  | none :: ks, hk, F, xs, h, o => by
    obtain ⟨ps, h', e, hr, o'⟩ := createPairs_owns hz pk hk.tail o
    refine ⟨none :: ps, h', ?_, .cons trivial hr, ?_⟩
    · simp only [List.length_cons, List.replicate_succ, createPairs, e, Option.bind_eq_bind, Option.bind_some]
    · exact o'
  | some k :: ks, hk, F, xs, h, o => by
    obtain ⟨p, h1, e1, hp, o1⟩ := PairLife.create_owns hz pk (hk k (by simp)) o
    obtain ⟨ps, h', e, hr, o'⟩ := createPairs_owns hz pk hk.tail o1
    refine ⟨some p :: ps, h', ?_, .cons hp hr, ?_⟩
    · simp only [List.length_cons, List.replicate_succ, createPairs, e1, e, Option.bind_eq_bind, Option.bind_some]
    · refine o'.reorder ?_
      simp only [pairsItems]
      perm_tac

theorem destroyPairs_owns {z : TypeSizes} {ks : List (Option PSkel)} {ps : List (Option PairLife)}
    (hr : PairsReady z ks ps) : ∀ {F : List Blk} {xs : List Item} {h : Heap}, Owns F (pairsItems z ks ps ++ xs) h →
    ∃ h', destroyPairs false ps h = some h' ∧ Owns F xs h' := by
  induction hr with
  | nil => intro F xs h o; exact ⟨h, rfl, o⟩
  | @cons k p ks ps hkp hr ih =>
    intro F xs h o
    cases k with
    | none =>
      cases p with
      | some p => exact hkp.elim
      | none => exact ih o
    | some k =>
      cases p with
      | none => exact hkp.elim
      | some p =>
        simp only [pairsItems, List.append_assoc] at o
        obtain ⟨h1, e1, o1⟩ := PairLife.destroy_owns hkp o
        obtain ⟨h2, e2, o2⟩ := ih o1
        refine ⟨h2, ?_, o2⟩
        simp only [destroyPairs, e1, e2, Option.bind_eq_bind, Option.bind_some]

theorem usePairs_ok {z : TypeSizes} (hz : z.Pos) {ss rs : Int} {ks : List (Option PSkel)} {ps : List (Option PairLife)}
    (hr : PairsReady z ks ps) (hk : PairsFit ss rs ks) {F : List Blk} {h : Heap} {us ur : Ptr}
    (hu : h.usable us (ss * z.scalar) = true) (hv : h.usable ur (rs * z.scalar) = true) :
    ∀ {xs : List Item}, Owns F (pairsItems z ks ps ++ xs) h →
    ∃ ps', usePairs z us ur ps h = some (.ok ps') ∧ PairsReady z ks ps' ∧
      pairsItems z ks ps' = pairsItems z ks ps ∧ pairsMemory ps' = pairsMemory ps := by
  induction hr with
  | nil => intro xs o; exact ⟨[], rfl, .nil, rfl, rfl⟩
  | @cons k p ks ps hkp hr ih =>
    intro xs o
    cases k with
    | none =>
      cases p with
      | some p => exact hkp.elim
      | none =>
        obtain ⟨ps', e, h1, h2, h3⟩ := ih hk.tail o
        refine ⟨none :: ps', ?_, .cons trivial h1, h2, ?_⟩
        · simp only [usePairs, e]
        · simpa [pairsMemory] using h3
    | some k =>
      cases p with
      | none => exact hkp.elim
      | some p =>
        simp only [pairsItems, List.append_assoc] at o
        obtain ⟨p', e1, h1, h2, h3⟩ := PairLife.use_ok hz (hk k (by simp)) hkp o hu hv
        obtain ⟨ps', e, h4, h5, h6⟩ := ih hk.tail (xs := p.items z k ++ xs) (o.reorder (by perm_tac))
        refine ⟨some p' :: ps', ?_, .cons h1 h4, ?_, ?_⟩
        · simp only [usePairs, e1, e]
        · simp only [pairsItems, h2, h5]
        · simp only [pairsMemory, List.map_cons, List.sum_cons] at h6 ⊢
          rw [h6]
          congr 1

/-- Use of the entry at one position. -/
theorem useOne_ok {z : TypeSizes} (hz : z.Pos) {ss rs : Int} {ks : List (Option PSkel)} {ps : List (Option PairLife)}
    (hr : PairsReady z ks ps) (hk : PairsFit ss rs ks) {F : List Blk} {h : Heap} {us ur : Ptr}
    (hu : h.usable us (ss * z.scalar) = true) (hv : h.usable ur (rs * z.scalar) = true) :
    ∀ {xs : List Item}, Owns F (pairsItems z ks ps ++ xs) h → ∀ {i : Nat} {p : PairLife}, ps[i]? = some (some p) →
    ∃ p', p.use z us ur h = some (.ok p') ∧ PairsReady z ks (ps.set i (some p')) ∧
      pairsItems z ks (ps.set i (some p')) = pairsItems z ks ps := by
  induction hr with
  | nil => intro xs o i p hi; simp at hi
  | @cons k q ks ps hkp hr ih =>
    intro xs o i p hi
    cases i with
    | zero =>
      simp only [List.getElem?_cons_zero, Option.some.injEq] at hi
      subst hi
      cases k with
      | none => exact hkp.elim
      | some k =>
        simp only [pairsItems, List.append_assoc] at o
        obtain ⟨p', e1, h1, h2, -⟩ := PairLife.use_ok hz (hk k (by simp)) hkp o hu hv
        refine ⟨p', e1, .cons h1 hr, ?_⟩
        simp only [List.set_cons_zero, pairsItems, h2]
    | succ i =>
      simp only [List.getElem?_cons_succ] at hi
      have o' : ∃ ys, Owns F (pairsItems z ks ps ++ ys) h := by
        cases k with
        | none =>
          cases q with
          | some q => exact hkp.elim
          | none => exact ⟨xs, o⟩
        | some k =>
          cases q with
          | none => exact hkp.elim
          | some q =>
            simp only [pairsItems, List.append_assoc] at o
            exact ⟨q.items z k ++ xs, o.reorder (by perm_tac)⟩
      obtain ⟨ys, o'⟩ := o'
      obtain ⟨p', e, h1, h2⟩ := ih hk.tail o' hi
      refine ⟨p', e, .cons hkp h1, ?_⟩
      simp only [List.set_cons_succ]
      cases k <;> cases q <;> simp only [pairsItems, h2]

/-! ## 1d FFTs -/

/-- Plans of the 1d FFTs of `FFT3d` in the order of their release. -/
def planItems3 (lib : Option Package) (k : FSkel) (fast mid slow : Fft1dLife) : List Item :=
  match lib with
  | some .mkl => [⟨fast.planF, planKind (some .mkl) k.nfast false, 1⟩, ⟨mid.planF, planKind (some .mkl) k.nmid false, 1⟩,
      ⟨slow.planF, planKind (some .mkl) k.nslow false, 1⟩]
  | some .fftw3 => [⟨fast.planF, planKind (some .fftw3) k.nfast false, 1⟩,
      ⟨fast.planB, planKind (some .fftw3) k.nfast true, 1⟩, ⟨mid.planF, planKind (some .fftw3) k.nmid false, 1⟩,
      ⟨mid.planB, planKind (some .fftw3) k.nmid true, 1⟩, ⟨slow.planF, planKind (some .fftw3) k.nslow false, 1⟩,
      ⟨slow.planB, planKind (some .fftw3) k.nslow true, 1⟩]
  | lib =>
    (if k.nslow ≠ k.nfast ∧ k.nslow ≠ k.nmid then
      [⟨slow.planF, planKind lib k.nslow false, 1⟩, ⟨slow.planB, planKind lib k.nslow true, 1⟩] else []) ++
    (if k.nmid ≠ k.nfast then
      [⟨mid.planF, planKind lib k.nmid false, 1⟩, ⟨mid.planB, planKind lib k.nmid true, 1⟩] else []) ++
    [⟨fast.planF, planKind lib k.nfast false, 1⟩, ⟨fast.planB, planKind lib k.nfast true, 1⟩]

/-- Plans of the 1d FFTs of `FFT2d` in the order of their release. -/
def planItems2 (lib : Option Package) (k : FSkel) (fast slow : Fft1dLife) : List Item :=
  match lib with
  | some .mkl => [⟨fast.planF, planKind (some .mkl) k.nfast false, 1⟩,
      ⟨slow.planF, planKind (some .mkl) k.nslow false, 1⟩]
  | some .fftw3 => [⟨fast.planF, planKind (some .fftw3) k.nfast false, 1⟩,
      ⟨fast.planB, planKind (some .fftw3) k.nfast true, 1⟩, ⟨slow.planF, planKind (some .fftw3) k.nslow false, 1⟩,
      ⟨slow.planB, planKind (some .fftw3) k.nslow true, 1⟩]
  | lib =>
    (if k.nslow ≠ k.nfast then
      [⟨slow.planF, planKind lib k.nslow false, 1⟩, ⟨slow.planB, planKind lib k.nslow true, 1⟩] else []) ++
    [⟨fast.planF, planKind lib k.nfast false, 1⟩, ⟨fast.planB, planKind lib k.nfast true, 1⟩]

/-- Items of the 1d FFTs in the order of their release. -/
def fftItems (lib : Option Package) (cls : Cls) (k : FSkel) (fs : List Fft1dLife) : List Item :=
  match cls, fs with
  | .d3, [fast, mid, slow] =>
    planItems3 lib k fast mid slow ++ [⟨fast.ptr, .obj, 1⟩, ⟨mid.ptr, .obj, 1⟩, ⟨slow.ptr, .obj, 1⟩]
  | .d2, [fast, slow] => planItems2 lib k fast slow ++ [⟨fast.ptr, .obj, 1⟩, ⟨slow.ptr, .obj, 1⟩]
  | _, _ => []

/-- The lengths of the 1d FFTs. -/
def fftLengths (cls : Cls) (k : FSkel) : List Int :=
  match cls with
  | .d3 => [k.nfast, k.nmid, k.nslow]
  | .d2 => [k.nfast, k.nslow]

/-- The 1d FFTs are there: each has an object and two plans of its length among the items. -/
structure FftsReady (lib : Option Package) (cls : Cls) (k : FSkel) (fs : List Fft1dLife) : Prop where
  lengths : fs.map Fft1dLife.length = fftLengths cls k
  blk : ∀ x ∈ fftItems lib cls k fs, ∃ n, x.ptr = .blk n
  obj : ∀ f ∈ fs, (⟨f.ptr, .obj, 1⟩ : Item) ∈ fftItems lib cls k fs
  plan : ∀ f ∈ fs, (⟨f.planF, planKind lib f.length false, 1⟩ : Item) ∈ fftItems lib cls k fs ∧
    (⟨f.planB, planKind lib f.length true, 1⟩ : Item) ∈ fftItems lib cls k fs

theorem sharedPlans3_owns {lib : Option Package} (hl : lib = none ∨ lib = some .fftw2) (k : FSkel) {F : List Blk}
    {xs : List Item} {h : Heap} (o : Owns F xs h) :
    FftsReady lib .d3 k (setupFftsOf lib .d3 k h).1 ∧
      Owns F (fftItems lib .d3 k (setupFftsOf lib .d3 k h).1 ++ xs) (setupFftsOf lib .d3 k h).2 := by
  have es : ∀ h : Heap, setupFftsOf lib .d3 k h =
      sharedPlans3 lib (h.new .obj 1).1 ((h.new .obj 1).2.new .obj 1).1
        (((h.new .obj 1).2.new .obj 1).2.new .obj 1).1 k.nfast k.nmid k.nslow
        (((h.new .obj 1).2.new .obj 1).2.new .obj 1).2 := by
    intro h
    rcases hl with rfl | rfl <;> rfl
  have ei : ∀ f m s, fftItems lib .d3 k [f, m, s] =
      (if k.nslow ≠ k.nfast ∧ k.nslow ≠ k.nmid then
        [⟨s.planF, planKind lib k.nslow false, 1⟩, ⟨s.planB, planKind lib k.nslow true, 1⟩] else []) ++
      (if k.nmid ≠ k.nfast then
        [⟨m.planF, planKind lib k.nmid false, 1⟩, ⟨m.planB, planKind lib k.nmid true, 1⟩] else []) ++
      [⟨f.planF, planKind lib k.nfast false, 1⟩, ⟨f.planB, planKind lib k.nfast true, 1⟩] ++
      [⟨f.ptr, .obj, 1⟩, ⟨m.ptr, .obj, 1⟩, ⟨s.ptr, .obj, 1⟩] := by
    intro f m s
    rcases hl with rfl | rfl <;> rfl
  have o5 := ((((o.new .obj 1).new .obj 1).new .obj 1).new (planKind lib k.nfast false) 1).new
    (planKind lib k.nfast true) 1
  by_cases h1 : k.nmid = k.nfast
  · by_cases h2 : k.nslow = k.nfast
    · refine ⟨⟨?_, ?_, ?_, ?_⟩, ?_⟩
      all_goals simp only [es, sharedPlans3, h1, h2, if_true, ei, fftLengths, ne_eq, not_true_eq_false,
        if_false, false_and, List.nil_append]
      · rfl
      · simp [Heap.new]
      · simp
      · simp
      · exact o5.reorder (by perm_tac)
    · have h3 : k.nslow ≠ k.nmid := by rw [h1]; exact h2
      have o7 := (o5.new (planKind lib k.nslow false) 1).new (planKind lib k.nslow true) 1
      refine ⟨⟨?_, ?_, ?_, ?_⟩, ?_⟩
      all_goals simp only [es, sharedPlans3, h1, h2, h3, if_true, ei, fftLengths, ne_eq,
        not_true_eq_false, not_false_eq_true, if_false, and_self, List.append_nil]
      · rfl
      · simp [Heap.new]
      · simp
      · simp
      · exact o7.reorder (by perm_tac)
  · by_cases h2 : k.nslow = k.nfast
    · have o7 := (o5.new (planKind lib k.nmid false) 1).new (planKind lib k.nmid true) 1
      refine ⟨⟨?_, ?_, ?_, ?_⟩, ?_⟩
      all_goals simp only [es, sharedPlans3, h1, h2, if_true, ei, fftLengths, ne_eq, not_true_eq_false,
        not_false_eq_true, if_false, false_and, List.nil_append]
      · rfl
      · simp [Heap.new]
      · simp
      · simp
      · exact o7.reorder (by perm_tac)
    · by_cases h3 : k.nslow = k.nmid
      · have o7 := (o5.new (planKind lib k.nmid false) 1).new (planKind lib k.nmid true) 1
        refine ⟨⟨?_, ?_, ?_, ?_⟩, ?_⟩
        all_goals simp only [es, sharedPlans3, h1, h3, if_true, ei, fftLengths, ne_eq,
          not_true_eq_false, not_false_eq_true, if_false, and_false, List.nil_append]
        · rfl
        · simp [Heap.new]
        · simp
        · simp
        · exact o7.reorder (by perm_tac)
      · have o9 := (((o5.new (planKind lib k.nmid false) 1).new (planKind lib k.nmid true) 1).new
          (planKind lib k.nslow false) 1).new (planKind lib k.nslow true) 1
        refine ⟨⟨?_, ?_, ?_, ?_⟩, ?_⟩
        all_goals simp only [es, sharedPlans3, h1, h2, h3, if_true, ei, fftLengths, ne_eq,
          not_false_eq_true, if_false, and_self]
        · rfl
        · simp [Heap.new]
        · simp
        · simp
        · exact o9.reorder (by perm_tac)

theorem sharedPlans2_owns {lib : Option Package} (hl : lib = none ∨ lib = some .fftw2) (k : FSkel) {F : List Blk}
    {xs : List Item} {h : Heap} (o : Owns F xs h) :
    FftsReady lib .d2 k (setupFftsOf lib .d2 k h).1 ∧
      Owns F (fftItems lib .d2 k (setupFftsOf lib .d2 k h).1 ++ xs) (setupFftsOf lib .d2 k h).2 := by
  have es : ∀ h : Heap, setupFftsOf lib .d2 k h =
      sharedPlans2 lib (h.new .obj 1).1 ((h.new .obj 1).2.new .obj 1).1 k.nfast k.nslow
        ((h.new .obj 1).2.new .obj 1).2 := by
    intro h
    rcases hl with rfl | rfl <;> rfl
  have ei : ∀ f s, fftItems lib .d2 k [f, s] =
      (if k.nslow ≠ k.nfast then
        [⟨s.planF, planKind lib k.nslow false, 1⟩, ⟨s.planB, planKind lib k.nslow true, 1⟩] else []) ++
      [⟨f.planF, planKind lib k.nfast false, 1⟩, ⟨f.planB, planKind lib k.nfast true, 1⟩] ++
      [⟨f.ptr, .obj, 1⟩, ⟨s.ptr, .obj, 1⟩] := by
    intro f s
    rcases hl with rfl | rfl <;> rfl
  have o4 := (((o.new .obj 1).new .obj 1).new (planKind lib k.nfast false) 1).new (planKind lib k.nfast true) 1
  by_cases h2 : k.nslow = k.nfast
  · refine ⟨⟨?_, ?_, ?_, ?_⟩, ?_⟩
    all_goals simp only [es, sharedPlans2, h2, if_true, ei, fftLengths, ne_eq, not_true_eq_false,
      if_false, List.nil_append]
    · rfl
    · simp [Heap.new]
    · simp
    · simp
    · exact o4.reorder (by perm_tac)
  · have o6 := (o4.new (planKind lib k.nslow false) 1).new (planKind lib k.nslow true) 1
    refine ⟨⟨?_, ?_, ?_, ?_⟩, ?_⟩
    all_goals simp only [es, sharedPlans2, h2, if_true, ei, fftLengths, ne_eq,
      not_false_eq_true, if_false]
    · rfl
    · simp [Heap.new]
    · simp
    · simp
    · exact o6.reorder (by perm_tac)

theorem setupFfts_owns (lib : Option Package) (cls : Cls) (k : FSkel) {F : List Blk} {xs : List Item} {h : Heap}
    (o : Owns F xs h) :
    FftsReady lib cls k (setupFftsOf lib cls k h).1 ∧
      Owns F (fftItems lib cls k (setupFftsOf lib cls k h).1 ++ xs) (setupFftsOf lib cls k h).2 := by
  match lib, cls with
  | none, .d3 => exact sharedPlans3_owns (Or.inl rfl) k o
  | some .fftw2, .d3 => exact sharedPlans3_owns (Or.inr rfl) k o
  | none, .d2 => exact sharedPlans2_owns (Or.inl rfl) k o
  | some .fftw2, .d2 => exact sharedPlans2_owns (Or.inr rfl) k o
  | some .mkl, .d3 =>
    have o6 := (((((o.new .obj 1).new .obj 1).new .obj 1).new (planKind (some .mkl) k.nfast false) 1).new
      (planKind (some .mkl) k.nmid false) 1).new (planKind (some .mkl) k.nslow false) 1
    refine ⟨⟨rfl, ?_, ?_, ?_⟩, o6.reorder ?_⟩
    · simp [setupFftsOf, fftBlocks3, mklPlans3, fftItems, planItems3, Heap.new]
    · simp [setupFftsOf, fftBlocks3, mklPlans3, fftItems, planItems3, Heap.new, planKind]
    · simp [setupFftsOf, fftBlocks3, mklPlans3, fftItems, planItems3, Heap.new, planKind]
    · simp only [setupFftsOf, fftBlocks3, mklPlans3, fftItems, planItems3]
      perm_tac
  | some .mkl, .d2 =>
    have o4 := (((o.new .obj 1).new .obj 1).new (planKind (some .mkl) k.nfast false) 1).new
      (planKind (some .mkl) k.nslow false) 1
    refine ⟨⟨rfl, ?_, ?_, ?_⟩, o4.reorder ?_⟩
    · simp [setupFftsOf, fftBlocks2, mklPlans2, fftItems, planItems2, Heap.new]
    · simp [setupFftsOf, fftBlocks2, mklPlans2, fftItems, planItems2, Heap.new, planKind]
    · simp [setupFftsOf, fftBlocks2, mklPlans2, fftItems, planItems2, Heap.new, planKind]
    · simp only [setupFftsOf, fftBlocks2, mklPlans2, fftItems, planItems2]
      perm_tac
  | some .fftw3, .d3 =>
    have o9 := ((((((((o.new .obj 1).new .obj 1).new .obj 1).new (planKind (some .fftw3) k.nfast false) 1).new
      (planKind (some .fftw3) k.nfast true) 1).new (planKind (some .fftw3) k.nmid false) 1).new
      (planKind (some .fftw3) k.nmid true) 1).new (planKind (some .fftw3) k.nslow false) 1).new
      (planKind (some .fftw3) k.nslow true) 1
    refine ⟨⟨rfl, ?_, ?_, ?_⟩, o9.reorder ?_⟩
    · simp [setupFftsOf, fftBlocks3, fftw3Plans3, fftItems, planItems3, Heap.new]
    · simp [setupFftsOf, fftBlocks3, fftw3Plans3, fftItems, planItems3, Heap.new, planKind]
    · simp [setupFftsOf, fftBlocks3, fftw3Plans3, fftItems, planItems3, Heap.new, planKind]
    · simp only [setupFftsOf, fftBlocks3, fftw3Plans3, fftItems, planItems3]
      perm_tac
  | some .fftw3, .d2 =>
    have o6 := (((((o.new .obj 1).new .obj 1).new (planKind (some .fftw3) k.nfast false) 1).new
      (planKind (some .fftw3) k.nfast true) 1).new (planKind (some .fftw3) k.nslow false) 1).new
      (planKind (some .fftw3) k.nslow true) 1
    refine ⟨⟨rfl, ?_, ?_, ?_⟩, o6.reorder ?_⟩
    · simp [setupFftsOf, fftBlocks2, fftw3Plans2, fftItems, planItems2, Heap.new]
    · simp [setupFftsOf, fftBlocks2, fftw3Plans2, fftItems, planItems2, Heap.new, planKind]
    · simp [setupFftsOf, fftBlocks2, fftw3Plans2, fftItems, planItems2, Heap.new, planKind]
    · simp only [setupFftsOf, fftBlocks2, fftw3Plans2, fftItems, planItems2]
      perm_tac

theorem freeFfts_owns {lib : Option Package} {cls : Cls} {k : FSkel} {fs : List Fft1dLife}
    (hr : FftsReady lib cls k fs) (memory : Ptr) {F : List Blk} {xs : List Item} {h : Heap}
    (o : Owns F (fftItems lib cls k fs ++ xs) h) :
    ∃ gs h', freeFfts lib cls k.nfast k.nmid k.nslow (some fs) = some gs ∧ h.freeAll false memory gs = some h' ∧
      Owns F xs h' := by
  have hl := congrArg List.length hr.lengths
  have hu : ∀ x ∈ fftItems lib cls k fs, ∀ n, x.ptr ≠ .user n := by
    intro x hx n
    obtain ⟨m, hm⟩ := hr.blk x hx
    simp [hm]
  have key : ∀ gs, freeFfts lib cls k.nfast k.nmid k.nslow (some fs) = some gs →
      List.Forall₂ (fun (f : Free) (x : Item) => f.ptr = x.ptr ∧ f.fits x.kind = true ∧ ∀ n, x.ptr ≠ .user n) gs
        (fftItems lib cls k fs) → ∃ h', h.freeAll false memory gs = some h' ∧ Owns F xs h' :=
    fun gs _ hf => Owns.freeAll _ _ _ o hf
  cases cls with
  | d3 =>
    match fs, hl with
    | [f, m, s], _ =>
      suffices hh : List.Forall₂ (fun (f : Free) (x : Item) => f.ptr = x.ptr ∧ f.fits x.kind = true ∧ ∀ n, x.ptr ≠ .user n)
          (freePlans3 lib k.nfast k.nmid k.nslow f m s ++ [Free.del f.ptr, Free.del m.ptr, Free.del s.ptr])
          (fftItems lib .d3 k [f, m, s]) by
        obtain ⟨h', e, o'⟩ := key _ rfl hh
        exact ⟨_, h', rfl, e, o'⟩
      unfold fftItems at hu ⊢
      rcases lib with _ | (_ | _ | _) <;> simp only [planItems3, freePlans3] at hu ⊢ <;> (try split_ifs at hu ⊢) <;>
        simpa [Free.ptr, Free.fits, planFree, planKind] using hu
  | d2 =>
    match fs, hl with
    | [f, s], _ =>
      suffices hh : List.Forall₂ (fun (f : Free) (x : Item) => f.ptr = x.ptr ∧ f.fits x.kind = true ∧ ∀ n, x.ptr ≠ .user n)
          (freePlans2 lib k.nfast k.nslow f s ++ [Free.del f.ptr, Free.del s.ptr])
          (fftItems lib .d2 k [f, s]) by
        obtain ⟨h', e, o'⟩ := key _ rfl hh
        exact ⟨_, h', rfl, e, o'⟩
      unfold fftItems at hu ⊢
      rcases lib with _ | (_ | _ | _) <;> simp only [planItems2, freePlans2] at hu ⊢ <;> (try split_ifs at hu ⊢) <;>
        simpa [Free.ptr, Free.fits, planFree, planKind] using hu

theorem Owns.getMem {F : List Blk} {xs : List Item} {h : Heap} (o : Owns F xs h) {x : Item} (hx : x ∈ xs)
    {id : Nat} (hg : x.ptr = .blk id) : h.get x.ptr = some ⟨id, x.kind, x.bytes⟩ := by
  obtain ⟨ys, zs, rfl⟩ := List.append_of_mem hx
  have o' : Owns F (x :: (ys ++ zs)) h := o.reorder (by perm_tac)
  exact o'.get hg

theorem useFfts_ok {lib : Option Package} {cls : Cls} {k : FSkel} {fs : List Fft1dLife} (hr : FftsReady lib cls k fs) (flag : Int)
    {F : List Blk} {xs : List Item} {h : Heap} (o : Owns F (fftItems lib cls k fs ++ xs) h) :
    useFfts lib flag fs h = some () := by
  have key : ∀ gs : List Fft1dLife, (∀ f ∈ gs, f ∈ fs) → useFfts lib flag gs h = some () := by
    intro gs
    induction gs with
    | nil => intro _; rfl
    | cons f gs ih =>
      intro hg
      have hf := hg f (by simp)
      have h1 := hr.obj f hf
      obtain ⟨h2, h3⟩ := hr.plan f hf
      obtain ⟨n1, e1⟩ := hr.blk _ h1
      obtain ⟨n2, e2⟩ := hr.blk _ h2
      obtain ⟨n3, e3⟩ := hr.blk _ h3
      have g1 := o.getMem (List.mem_append_left _ h1) e1
      have g2 := o.getMem (List.mem_append_left _ h2) e2
      have g3 := o.getMem (List.mem_append_left _ h3) e3
      have e : f.use lib flag h = some () := by
        unfold Fft1dLife.use
        by_cases hflag : flag = 1
        · simp [g1, g2, hflag]
        · simp [g1, g3, hflag]
      simp only [useFfts, e, Option.bind_eq_bind, Option.bind_some]
      exact ih fun x hx => hg x (List.mem_cons_of_mem _ hx)
  exact key fs fun _ h => h

end FftMpi
