import Verif.Fft3dPlan

/-!
# The stages of a 3d FFT

Every stage (a remap, 1d FFTs, `memcpy`, scaling) works on one user array of each rank; `Holds` says which
grid function the arrays of all ranks hold, and in which layout and storage order.
-/

noncomputable section

namespace FftMpi

/-- On every rank the array `n` holds the values of `X` for the rank's box of the layout `bs`, in storage
order `permute`. -/
def Holds (P : Nat) (permute : Int) (bs : Nat → Box3) (n : Nat) (X : Grid3) (m : Nat → LMem ℝ) : Prop :=
  ∀ r < P, HoldsBox permute (bs r) X ((m r).ub n)

/-- The programs `prog` form a stage from `m` to `m'` which writes only to array `ao`, and there only in the
first `size r` complex numbers. -/
structure Step (e : Bool) (P : Nat) (size : Nat → Int) (ao : Nat) (prog : Nat → List (Instr ℝ))
    (m m' : Nat → LMem ℝ) : Prop where
  ok : StageOK e P prog m m'
  dom : SameDom P m m'
  other : ∀ r < P, ∀ n, n ≠ ao → (m' r).ub n = (m r).ub n
  frame : ∀ r < P, ∀ x, (x < 0 ∨ 2 * size r ≤ x) → (m' r).ub ao x = (m r).ub ao x

theorem Step.nil {e : Bool} {P : Nat} {size : Nat → Int} {ao : Nat} (m : Nat → LMem ℝ) :
    Step e P size ao (fun _ => []) m m where
  ok := StageOK.nil m
  dom := SameDom.refl P m
  other _ _ _ _ := rfl
  frame _ _ _ _ := rfl

theorem Step.append {e : Bool} {P : Nat} {size : Nat → Int} {ao : Nat} {p1 p2 : Nat → List (Instr ℝ)}
    {m m1 m2 : Nat → LMem ℝ} (h1 : Step e P size ao p1 m m1) (h2 : Step e P size ao p2 m1 m2) :
    Step e P size ao (fun r => p1 r ++ p2 r) m m2 where
  ok := h1.ok.append h2.ok
  dom := h1.dom.trans h2.dom
  other r hr n hn := (h2.other r hr n hn).trans (h1.other r hr n hn)
  frame r hr x hx := (h2.frame r hr x hx).trans (h1.frame r hr x hx)

theorem Step.congr {e : Bool} {P : Nat} {size : Nat → Int} {ao : Nat} {p p' : Nat → List (Instr ℝ)}
    {m m' : Nat → LMem ℝ} (h : Step e P size ao p m m') (hp : ∀ r < P, p' r = p r) :
    Step e P size ao p' m m' :=
  ⟨h.ok.congr hp, h.dom, h.other, h.frame⟩

/-! ## Remaps -/

/-- Storage order of an array that is described in the storage order `p` and stored with `q`. -/
theorem addr3_comp {p q s : Int} (hp : p = 0 ∨ p = 1 ∨ p = 2) (hq : q = 0 ∨ q = 1 ∨ q = 2)
    (hs : s = (p + q) % 3) (b : Box3) (n i j k x : Int) :
    addr3 q (rotBox p b) n (rotPt p (i, j, k)).1 (rotPt p (i, j, k)).2.1 (rotPt p (i, j, k)).2.2 x =
      addr3 s b n i j k x := by
  subst hs
  rcases hp with rfl | rfl | rfl <;> rcases hq with rfl | rfl | rfl <;>
    simp [addr3, rotBox, rotPt, Box3.isize, Box3.jsize, Box3.ksize]

theorem rotBox_count (p : Int) (b : Box3) : (rotBox p b).count = b.count := by
  unfold rotBox Box3.count Box3.isize Box3.jsize Box3.ksize
  split_ifs <;> simp only <;> ring

theorem count_nonneg (b : Box3) : 0 ≤ b.count :=
  mul_nonneg (mul_nonneg (le_max_right _ _) (le_max_right _ _)) (le_max_right _ _)

/-- A box with points. -/
theorem sizes_of_count_pos {b : Box3} (h : 0 < b.count) : 0 < b.isize ∧ 0 < b.jsize ∧ 0 < b.ksize := by
  unfold Box3.count at h
  refine ⟨?_, ?_, ?_⟩ <;> by_contra hc
  · rw [max_eq_right (by omega : b.isize ≤ 0)] at h; simp at h
  · rw [max_eq_right (by omega : b.jsize ≤ 0)] at h; simp at h
  · rw [max_eq_right (by omega : b.ksize ≤ 0)] at h; simp at h

/-- Every position of the array of a box belongs to a point. -/
theorem addr_of_lt {p : Int} {b : Box3} {x : Int} (h0 : 0 ≤ x) (h1 : x < 2 * b.count) :
    ∃ i j k q, b.Has i j k ∧ (q = 0 ∨ q = 1) ∧ addr3 p b 2 i j k q = x := by
  have hc : 0 < b.count := by omega
  obtain ⟨s1, s2, s3⟩ := sizes_of_count_pos hc
  have e : b.count = b.vol := by
    unfold Box3.count Box3.vol
    rw [max_eq_left s1.le, max_eq_left s2.le, max_eq_left s3.le]
  rw [e] at h1
  obtain ⟨i, j, k, q, h, hq, he⟩ := addr3_surj (permute := p) s1 s2 s3 (by decide : (0 : Int) < 2) ⟨h0, h1⟩
  exact ⟨i, j, k, q, h, by omega, he⟩

theorem holdsBox_accessible {p : Int} {b : Box3} {X : Grid3} {u : Mem ℝ} (h : HoldsBox p b X u) :
    accessible u 0 (2 * b.count) := by
  intro x h0 h1
  obtain ⟨i, j, k, q, hb, hq, he⟩ := addr_of_lt (p := p) h0 (by simpa using h1)
  obtain ⟨g1, g2⟩ := h i j k hb
  rcases hq with rfl | rfl
  · rw [← he, g1]; rfl
  · rw [← he, g2]; rfl

/-- The point in storage order lies in the rotated box. -/
theorem rotBox_disjoint {P : Nat} {bs : Nat → Box3} (p : Int) (h : Disjoint3 P bs) :
    Disjoint3 P fun r => rotBox p (bs r) := by
  intro a ha b hb x y z h1 h2
  obtain ⟨i, j, k, e⟩ := rotPt_surj p x y z
  have e1 : x = (rotPt p (i, j, k)).1 := by rw [e]
  have e2 : y = (rotPt p (i, j, k)).2.1 := by rw [e]
  have e3 : z = (rotPt p (i, j, k)).2.2 := by rw [e]
  simp only [e1, e2, e3, rotBox_has] at h1 h2
  exact h a ha b hb i j k h1 h2

/-- The remap of rank `r`. -/
def Create.on (c : Create) (r : Nat) : Create := { c with me := r }

/-- One remap: the arrays held `X` in the layout `bs`, now they hold it in the layout `bs'`. -/
theorem remapStep (e : Bool) {c : Create} (hst : c.st.Valid) (inst : Nat) (coll : Bool)
    {ins outs bs bs' : Nat → Box3} {p q s : Int} (hp : p = 0 ∨ p = 1 ∨ p = 2) (hq : q = 0 ∨ q = 1 ∨ q = 2)
    (hs : s = (p + q) % 3) (hins : ∀ r, ins r = rotBox p (bs r)) (houts : ∀ r, outs r = rotBox p (bs' r))
    {n1 n2 n3 : Int} (T : Tiles3 c.P bs n1 n2 n3) (T' : Tiles3 c.P bs' n1 n2 n3) {size : Nat → Int}
    (hsize : ∀ r < c.P, (bs' r).count ≤ size r) {ai ao : Nat} {X : Grid3} {m : Nat → LMem ℝ}
    (hX : Holds c.P p bs ai X m)
    (hd : ∀ r < c.P, accessible ((m r).ub ao) 0 (2 * size r))
    (hsb : ∀ r < c.P, accessible (m r).sb 0 (mkRemap (α := ℝ) (c.on r) inst coll ins outs q).obj.sendsize)
    (hrb : ∀ r < c.P, accessible (m r).rb 0 (mkRemap (α := ℝ) (c.on r) inst coll ins outs q).obj.recvsize) :
    ∃ m', Step e c.P size ao
        (fun r => (mkRemap (α := ℝ) (c.on r) inst coll ins outs q).prog ai ao) m m' ∧
      Holds c.P s bs' ao X m' := by
  have ei : ins = fun r => rotBox p (bs r) := funext hins
  have eo : outs = fun r => rotBox p (bs' r) := funext houts
  let C : Call3 := { ins, outs, nqty := 2, permute := q, packflag := c.st.packflag, collective := coll,
                     inst, ai, ao }
  let obj : Nat → RemapObj ℝ PackPlan3 := fun r => (mkRemap (α := ℝ) (c.on r) inst coll ins outs q).obj
  have hv : C.Valid c.P :=
    { disjoint := by
        change Disjoint3 c.P ins
        rw [ei]; exact rotBox_disjoint p T.disjoint
      nqty := (by decide : (1 : Int) ≤ 2)
      permute := hq
      packflag := hst }
  have hset : C.Setup c.P obj := by
    intro r hr
    obtain ⟨o, ho⟩ := remapSetup3_some (α := ℝ) hst hr coll ins outs hq
    change remapSetup dim3 c.P r ins outs 2 q c.st.packflag coll =
      some ((remapSetup dim3 c.P r ins outs 2 q c.st.packflag coll).getD dummyObj)
    rw [ho]; rfl
  have hf : C.Fits c.P obj m :=
    { inp := by
        intro r hr
        change accessible ((m r).ub ai) 0 (2 * (ins r).count)
        rw [hins, rotBox_count]
        exact holdsBox_accessible (hX r hr)
      out := by
        intro r hr
        change accessible ((m r).ub ao) 0 (2 * (outs r).count)
        rw [houts, rotBox_count]
        intro x h0 h1
        exact hd r hr x h0 (by have := hsize r hr; omega)
      sb := hsb
      rb := hrb }
  obtain ⟨m', h1, h2, h3⟩ := remap3_main e hv hset hf
  refine ⟨m', ⟨h1, h3, h2.other, ?_⟩, ?_⟩
  · intro r hr x hx
    apply h2.frame r hr
    intro i j k y hh hy he
    have hr' := addr3_range (permute := q) hh hy
    have hc := Box3.count_of_has hh
    change (outs r).count = (outs r).vol at hc
    rw [houts, rotBox_count, ← houts] at hc
    have := hsize r hr
    change x = addr3 q (outs r) 2 i j k y at he
    change 0 ≤ addr3 q (outs r) 2 i j k y ∧ addr3 q (outs r) 2 i j k y < 2 * (outs r).vol at hr'
    omega
  · intro r hr i j k hh
    obtain ⟨w1, w2, w3⟩ := T'.inside r hr i j k hh
    obtain ⟨t, ht, hht⟩ := T.owner i j k w1 w2 w3
    have mv : ∀ y, (0 ≤ y ∧ y < 2) → (m' r).ub ao (addr3 s (bs' r) 2 i j k y) =
        (m t).ub ai (addr3 p (bs t) 2 i j k y) := by
      intro y hy
      have := h2.moved t ht r hr (rotPt p (i, j, k)).1 (rotPt p (i, j, k)).2.1 (rotPt p (i, j, k)).2.2 y
        (by change (ins t).Has _ _ _; rw [hins, rotBox_has]; exact hht)
        (by change (outs r).Has _ _ _; rw [houts, rotBox_has]; exact hh) hy
      change (m' r).ub ao (addr3 q (outs r) 2 _ _ _ y) = (m t).ub ai (addr3 0 (ins t) 2 _ _ _ y) at this
      rwa [hins, houts, addr3_rot, addr3_comp hp hq hs] at this
    obtain ⟨g1, g2⟩ := hX t ht i j k hht
    exact ⟨(mv 0 (by decide)).trans g1, (mv 1 (by decide)).trans g2⟩

/-! ## Local stages -/

/-- One local instruction on every rank that changes only array `ao`. -/
theorem locStep (e : Bool) {P : Nat} {size : Nat → Int} {ao : Nat} {m : Nat → LMem ℝ}
    (fs : Nat → LMem ℝ → Option (LMem ℝ)) (u : Nat → Mem ℝ)
    (h : ∀ r < P, fs r (m r) = some { m r with ub := Function.update (m r).ub ao (u r) })
    (hdom : ∀ r < P, ∀ a, (u r a).isSome = ((m r).ub ao a).isSome)
    (hframe : ∀ r < P, ∀ x, (x < 0 ∨ 2 * size r ≤ x) → u r x = (m r).ub ao x) :
    ∃ m', Step e P size ao (fun r => [.loc (fs r)]) m m' ∧ ∀ r < P, (m' r).ub ao = u r := by
  refine ⟨fun r => { m r with ub := Function.update (m r).ub ao (u r) }, ⟨?_, ?_, ?_, ?_⟩, ?_⟩
  · exact (StageOK.loc (fun r => [fs r]) m _ (by
      intro r hr
      simp [locPhase, h r hr])).congr (fun r _ => rfl)
  · intro r hr
    refine ⟨?_, fun _ => rfl, fun _ => rfl⟩
    intro n a
    by_cases hn : n = ao
    · subst hn; simpa using hdom r hr a
    · simp [hn]
  · intro r _ n hn
    simp [hn]
  · intro r hr x hx
    simpa using hframe r hr x hx
  · intro r _
    simp

/-- Transforms of lines on all ranks. -/
theorem lineStep (e : Bool) {P : Nat} {size : Nat → Int} {ao : Nat} {p : Int} {bs : Nat → Box3}
    {n : Nat} (hn : ∀ r < P, 1 ≤ n) (hlo : ∀ r < P, (rotBox p (bs r)).ilo = 0)
    (hhi : ∀ r < P, (rotBox p (bs r)).ihi = n - 1)
    (hjk : ∀ r < P, 0 ≤ (rotBox p (bs r)).jsize ∧ 0 ≤ (rotBox p (bs r)).ksize)
    {run : Nat → Mem ℂ → Option (Mem ℂ)} {T : (Nat → ℂ) → Nat → ℂ}
    (hrun : ∀ r < P, LinesOK (run r) T n ((rotBox p (bs r)).jsize * (rotBox p (bs r)).ksize).toNat)
    (hsize : ∀ r < P, (bs r).vol ≤ size r) {X : Grid3} {m : Nat → LMem ℝ}
    (hX : Holds P p bs ao X m) :
    ∃ m', Step e P size ao (fun r => [.loc fun l => (run r (cview (l.ub ao))).map fun c =>
        { l with ub := Function.update l.ub ao (cstore (l.ub ao) c) }]) m m' ∧
      Holds P p bs ao (lineAlong p T X) m' := by
  have key : ∀ r, ∃ c, r < P → run r (cview ((m r).ub ao)) = some c ∧
      HoldsBox p (bs r) (lineAlong p T X) (cstore ((m r).ub ao) c) ∧
      (∀ a, (cstore ((m r).ub ao) c a).isSome = ((m r).ub ao a).isSome) ∧
      ∀ a, (a < 0 ∨ 2 * (bs r).vol ≤ a) → cstore ((m r).ub ao) c a = (m r).ub ao a := by
    intro r
    by_cases hr : r < P
    · obtain ⟨c, hc⟩ := linesBox_ok (hn r hr) (hlo r hr) (hhi r hr) (hjk r hr) (hrun r hr) X _ (hX r hr)
      exact ⟨c, fun _ => hc⟩
    · exact ⟨fun _ => none, fun h => absurd h hr⟩
  choose c hc using key
  obtain ⟨m', h1, h2⟩ := locStep e (size := size) (ao := ao) (m := m)
    (fun r l => (run r (cview (l.ub ao))).map fun c =>
      { l with ub := Function.update l.ub ao (cstore (l.ub ao) c) }) (fun r => cstore ((m r).ub ao) (c r))
    (by intro r hr; simp [(hc r hr).1])
    (fun r hr => (hc r hr).2.2.1)
    (by
      intro r hr x hx
      apply (hc r hr).2.2.2
      have := hsize r hr
      omega)
  refine ⟨m', h1, ?_⟩
  intro r hr
  rw [h2 r hr]
  exact (hc r hr).2.1

/-- 1d FFTs on all ranks. -/
theorem fftStep (e : Bool) {P : Nat} {size : Nat → Int} {ao : Nat} {p : Int} {bs : Nat → Box3}
    {plan : Nat → Fft1d} {n : Nat} (hplan : ∀ r < P, BoxPlan p (bs r) (plan r) n)
    (hsize : ∀ r < P, (bs r).vol ≤ size r) (J : Nat → Junk) (flag : Int) {X : Grid3} {m : Nat → LMem ℝ}
    (hX : Holds P p bs ao X m) :
    ∃ m', Step e P size ao (fun r => [.loc (performLoc (J r) flag (plan r) ao)]) m m' ∧
      Holds P p bs ao (fftAlong p n (decide (flag ≠ 1)) X) m' :=
  lineStep e (fun r hr => (hplan r hr).plan.pos) (fun r hr => (hplan r hr).lo) (fun r hr => (hplan r hr).hi)
    (fun r hr => (hplan r hr).proper)
    (run := fun r => performFfts (J r) flag (plan r))
    (fun r hr data x hx => performFfts_ok (hplan r hr).plan (J r) flag data x hx) hsize hX

/-! ## The object of `setup`, as needed by the stages -/

/-- What `setup` has established, on all ranks. -/
structure Ready (c : Create) (f : Nat → Fft3 ℝ) : Prop where
  args : c.a.Valid c.P
  st : c.st.Valid
  made : setupGrids c.P c.a c.st.exchange = some c.g
  grids : c.g.OK c.P c.st.exchange
  same : ∀ r < c.P, (f r).same = inoutSame c.P c.a
  prefast : ∀ r < c.P, (f r).prefast = (c.on r).prefastO
  fastmid : ∀ r < c.P, (f r).fastmid = some (c.on r).fastmidP
  midslow : ∀ r < c.P, (f r).midslow = some (c.on r).midslowP
  postslow : ∀ r < c.P, (f r).postslow = (c.on r).postslowO
  preslow : ∀ r < c.P, (f r).preslow = if inoutSame c.P c.a then none else (c.on r).preslowO
  slowmid : ∀ r < c.P, (f r).slowmid = if inoutSame c.P c.a then none else some (c.on r).slowmidP
  midfast : ∀ r < c.P, (f r).midfast = if inoutSame c.P c.a then none else some (c.on r).midfastP
  postfast : ∀ r < c.P, (f r).postfast = if inoutSame c.P c.a then none else (c.on r).postfastO
  insize : ∀ r < c.P, (f r).insize = boxSize (c.a.ins r)
  outsize : ∀ r < c.P, (f r).outsize = boxSize (c.a.outs r)
  fftsize : ∀ r < c.P, (f r).fftsize = fftSize (c.on r)
  norm : ∀ r < c.P, (f r).norm = 1 / (c.a.nfast * c.a.nmid * c.a.nslow : ℝ)
  normnum : ∀ r < c.P, (f r).normnum = boxSize (c.a.outs r)
  fwd : ∀ r < c.P, ∀ x ∈ (c.on r).fwdSizes (α := ℝ),
    x.obj.sendsize ≤ (f r).sendsize ∧ x.obj.recvsize ≤ (f r).recvsize
  inv : inoutSame c.P c.a = false → ∀ r < c.P, ∀ x ∈ (c.on r).invSizes (α := ℝ),
    x.obj.sendsize ≤ (f r).sendsize ∧ x.obj.recvsize ≤ (f r).recvsize
  planFast : ∀ r < c.P, BoxPlan 0 (c.fast r) (f r).fftFast c.a.nfast.toNat
  planMid : ∀ r < c.P, BoxPlan 1 (c.mid r) (f r).fftMid c.a.nmid.toNat
  planSlow : ∀ r < c.P, BoxPlan 2 (c.slow r) (f r).fftSlow c.a.nslow.toNat

theorem boxPlan_mk {p : Int} {b R : Box3} {plan : Fft1d} {n : Int} (hR : rotBox p b = R) (lo : R.ilo = 0)
    (hi : R.ihi = n - 1) (hj : 0 ≤ R.jsize) (hk : 0 ≤ R.ksize) (hn : 2 ≤ n ∧ n < 2 ^ 31)
    (len : plan.length = n) (tot : plan.total = R.jsize * R.ksize * n)
    (fwd : kissAlloc n.toNat false = some plan.planForward)
    (bwd : kissAlloc n.toNat true = some plan.planBackward) : BoxPlan p b plan n.toNat := by
  subst hR
  have e : ((n.toNat : Nat) : Int) = n := by omega
  refine ⟨lo, by rw [e]; exact hi, ⟨hj, hk⟩, ⟨by rw [e]; exact len, ?_, by omega, by omega, fwd, bwd⟩⟩
  rw [Int.toNat_of_nonneg (mul_nonneg hj hk), e]
  exact tot

theorem ready_of_main {c : Create} {f : Nat → Fft3 ℝ} (hv : c.a.Valid c.P) (hst : c.st.Valid)
    (hm : setupGrids c.P c.a c.st.exchange = some c.g) (hg : c.g.OK c.P c.st.exchange)
    (hf : ∀ r < c.P, setupMain (c.on r) = some (f r)) : Ready c f := by
  have key : ∀ r < c.P, ∃ x y z, setupFfts (c.on r) = some (x, y, z) ∧ f r =
        { same := inoutSame c.P c.a
          prefast := (c.on r).prefastO, fastmid := some (c.on r).fastmidP
          midslow := some (c.on r).midslowP, postslow := (c.on r).postslowO
          preslow := if inoutSame c.P c.a then none else (c.on r).preslowO
          slowmid := if inoutSame c.P c.a then none else some (c.on r).slowmidP
          midfast := if inoutSame c.P c.a then none else some (c.on r).midfastP
          postfast := if inoutSame c.P c.a then none else (c.on r).postfastO
          insize := boxSize (c.a.ins r), outsize := boxSize (c.a.outs r)
          fftsize := fftSize (c.on r)
          sendsize := (((c.on r).fwdSizes (α := ℝ) ++
            if inoutSame c.P c.a then [] else (c.on r).invSizes).foldl bump (0, 0)).1
          recvsize := (((c.on r).fwdSizes (α := ℝ) ++
            if inoutSame c.P c.a then [] else (c.on r).invSizes).foldl bump (0, 0)).2
          fftFast := x, fftMid := y, fftSlow := z
          norm := 1 / (c.a.nfast * c.a.nmid * c.a.nslow : ℝ)
          normnum := boxSize (c.a.outs r) } := by
    intro r hr
    obtain ⟨x, y, z, h1, h2⟩ := setupMain_eq (α := ℝ) (c := c.on r) hst hr hv
    rw [hf r hr] at h2
    exact ⟨x, y, z, h1, Option.some.inj h2⟩
  have sz : ∀ r < c.P, ∀ x ∈ (c.on r).fwdSizes (α := ℝ) ++
      (if inoutSame c.P c.a then [] else (c.on r).invSizes),
      x.obj.sendsize ≤ (f r).sendsize ∧ x.obj.recvsize ≤ (f r).recvsize := by
    intro r hr x hx
    obtain ⟨_, _, _, _, h⟩ := key r hr
    rw [h]
    exact (foldl_bump_le _ _).2.2 x hx
  have plans : ∀ r < c.P, BoxPlan 0 (c.fast r) (f r).fftFast c.a.nfast.toNat ∧
      BoxPlan 1 (c.mid r) (f r).fftMid c.a.nmid.toNat ∧
      BoxPlan 2 (c.slow r) (f r).fftSlow c.a.nslow.toNat := by
    intro r hr
    obtain ⟨x, y, z, h1, h⟩ := key r hr
    obtain ⟨x', y', z', k1, k2, k3, k4⟩ := setupFfts_ok (c := c.on r) hv.fast hv.mid hv.slow
    rw [h1] at k1
    cases k1
    have e1 := hv.fast
    have e2 := hv.mid
    have e3 := hv.slow
    have f1 := fastBox_full (P := c.P) (a := c.a) (g := c.g) hr
    have f2 := midBox_full (a := c.a) (g := c.g) r
    have f3 := slowBox_full (P := c.P) (a := c.a) (g := c.g) hr
    have p1 := fastBox_proper hv hg hr
    have p2 := midBox_proper hv hg r
    have p3 := slowBox_proper hv hg hr
    rw [h]
    refine ⟨boxPlan_mk (R := c.fast r) rfl f1.1 f1.2 p1.2.1 p1.2.2 e1 k2.1 k2.2.1 k2.2.2.1 k2.2.2.2,
      boxPlan_mk (R := jki (c.mid r)) rfl f2.1 f2.2 p2.2.2 p2.1 e2 k3.1 ?_ k3.2.2.1 k3.2.2.2,
      boxPlan_mk (R := kij (c.slow r)) rfl f3.1 f3.2 p3.1 p3.2.1 e3 k4.1 k4.2.1 k4.2.2.1 k4.2.2.2⟩
    refine k3.2.1.trans ?_
    change (c.mid r).isize * (c.mid r).ksize * c.a.nmid = (c.mid r).ksize * (c.mid r).isize * c.a.nmid
    ring
  constructor
  case args => exact hv
  case st => exact hst
  case made => exact hm
  case grids => exact hg
  case fwd => exact fun r hr x hx => sz r hr x (List.mem_append_left _ hx)
  case inv =>
    intro hs r hr x hx
    exact sz r hr x (List.mem_append_right _ (by rw [hs]; simpa using hx))
  case planFast => exact fun r hr => (plans r hr).1
  case planMid => exact fun r hr => (plans r hr).2.1
  case planSlow => exact fun r hr => (plans r hr).2.2
  all_goals
    intro r hr
    obtain ⟨_, _, _, _, h⟩ := key r hr
    rw [h]

end FftMpi
