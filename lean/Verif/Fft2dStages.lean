import Verif.Fft2dPlan

/-!
# The stages of a 2d FFT

As in 3d (`Fft3dStages.lean`).  The local stages are those of the 3d FFT on one layer.
-/

noncomputable section

namespace FftMpi

/-- A function on the 2d grid. -/
abbrev Grid2 := Int → Int → ℂ

/-- The function on a layer. -/
def liftGrid (X : Grid2) : Grid3 := fun i j _ => X i j

/-- Array `u` of the owner of box `b` holds `X` in the storage order `permute`: real part first. -/
def HoldsBox2 (permute : Int) (b : Box2) (X : Grid2) (u : Mem ℝ) : Prop :=
  ∀ i j, b.Has i j → u (addr2 permute b 2 i j 0) = some (X i j).re ∧
    u (addr2 permute b 2 i j 1) = some (X i j).im

/-- On every rank the array `n` holds the values of `X` for the rank's box of the layout `bs`, in storage
order `permute`. -/
def Holds2 (P : Nat) (permute : Int) (bs : Nat → Box2) (n : Nat) (X : Grid2) (m : Nat → LMem ℝ) : Prop :=
  ∀ r < P, HoldsBox2 permute (bs r) X ((m r).ub n)

theorem holdsBox2_lift {p : Int} (hp : p = 0 ∨ p = 1) {b : Box2} {X : Grid2} {u : Mem ℝ} :
    HoldsBox2 p b X u ↔ HoldsBox p b.lift (liftGrid X) u := by
  constructor
  · intro h i j k hh
    rw [Box2.lift_has] at hh
    obtain ⟨hh, rfl⟩ := hh
    rw [addr2_lift hp, addr2_lift hp]
    exact h i j hh
  · intro h i j hh
    have := h i j 0 (Box2.lift_has.mpr ⟨hh, rfl⟩)
    rwa [addr2_lift hp, addr2_lift hp] at this

theorem holds2_lift {P : Nat} {p : Int} (hp : p = 0 ∨ p = 1) {bs : Nat → Box2} {n : Nat} {X : Grid2}
    {m : Nat → LMem ℝ} : Holds2 P p bs n X m ↔ Holds P p (fun r => (bs r).lift) n (liftGrid X) m :=
  forall₂_congr fun _ _ => holdsBox2_lift hp

theorem holdsBox2_accessible {p : Int} (hp : p = 0 ∨ p = 1) {b : Box2} {X : Grid2} {u : Mem ℝ}
    (h : HoldsBox2 p b X u) : accessible u 0 (2 * b.count) := by
  have := holdsBox_accessible ((holdsBox2_lift hp).mp h)
  rwa [Box2.lift_count] at this

theorem count2_nonneg (b : Box2) : 0 ≤ b.count := mul_nonneg (le_max_right _ _) (le_max_right _ _)

/-! ## Remaps -/

/-- Bounds in the order of the storage order `p`. -/
def rotBox2 (p : Int) (b : Box2) : Box2 := if p = 0 then b else ji b

/-- Coordinates in the order of the storage order `p`. -/
def rotPt2 (p : Int) (i j : Int) : Int × Int := if p = 0 then (i, j) else (j, i)

theorem rotBox2_has (p : Int) (b : Box2) (i j : Int) :
    (rotBox2 p b).Has (rotPt2 p i j).1 (rotPt2 p i j).2 ↔ b.Has i j := by
  unfold rotBox2 rotPt2 Box2.Has ji
  split_ifs
  · simp
  · simp only; tauto

theorem rotPt2_surj (p x y : Int) : ∃ i j, rotPt2 p i j = (x, y) := by
  unfold rotPt2
  split_ifs
  · exact ⟨x, y, rfl⟩
  · exact ⟨y, x, rfl⟩

theorem rotBox2_count (p : Int) (b : Box2) : (rotBox2 p b).count = b.count := by
  unfold rotBox2 ji Box2.count Box2.isize Box2.jsize
  split_ifs <;> simp only <;> ring

/-- Storage order of an array that is described in the storage order `p` and stored with `q`. -/
theorem addr2_comp {p q s : Int} (hp : p = 0 ∨ p = 1) (hq : q = 0 ∨ q = 1)
    (hs : s = (p + q) % 2) (b : Box2) (n i j x : Int) :
    addr2 q (rotBox2 p b) n (rotPt2 p i j).1 (rotPt2 p i j).2 x = addr2 s b n i j x := by
  subst hs
  rcases hp with rfl | rfl <;> rcases hq with rfl | rfl <;>
    simp [addr2, rotBox2, rotPt2, ji, Box2.isize, Box2.jsize]

theorem rotBox2_disjoint {P : Nat} {bs : Nat → Box2} (p : Int) (h : Disjoint2 P bs) :
    Disjoint2 P fun r => rotBox2 p (bs r) := by
  intro a ha b hb x y h1 h2
  obtain ⟨i, j, e⟩ := rotPt2_surj p x y
  have e1 : x = (rotPt2 p i j).1 := by rw [e]
  have e2 : y = (rotPt2 p i j).2 := by rw [e]
  simp only [e1, e2, rotBox2_has] at h1 h2
  exact h a ha b hb i j h1 h2

/-- The parameters of rank `r`. -/
def Create2.on (c : Create2) (r : Nat) : Create2 := { c with me := r }

/-- One remap: the arrays held `X` in the layout `bs`, now they hold it in the layout `bs'`. -/
theorem remapStep2 (e : Bool) {c : Create2} (hst : c.st.Valid2 c.w) (inst : Nat) (coll : Bool)
    {ins outs bs bs' : Nat → Box2} {p q s : Int} (hp : p = 0 ∨ p = 1) (hq : q = 0 ∨ q = 1)
    (hs : s = (p + q) % 2) (hins : ∀ r, ins r = rotBox2 p (bs r)) (houts : ∀ r, outs r = rotBox2 p (bs' r))
    {n1 n2 : Int} (T : Tiles2 c.P bs n1 n2) (T' : Tiles2 c.P bs' n1 n2) {size : Nat → Int}
    (hsize : ∀ r < c.P, (bs' r).count ≤ size r) {ai ao : Nat} {X : Grid2} {m : Nat → LMem ℝ}
    (hX : Holds2 c.P p bs ai X m)
    (hd : ∀ r < c.P, accessible ((m r).ub ao) 0 (2 * size r))
    (hsb : ∀ r < c.P, accessible (m r).sb 0 (mkRemap2 (α := ℝ) (c.on r) inst coll ins outs q).obj.sendsize)
    (hrb : ∀ r < c.P, accessible (m r).rb 0 (mkRemap2 (α := ℝ) (c.on r) inst coll ins outs q).obj.recvsize) :
    ∃ m', Step e c.P size ao
        (fun r => (mkRemap2 (α := ℝ) (c.on r) inst coll ins outs q).prog ai ao) m m' ∧
      Holds2 c.P s bs' ao X m' := by
  have ei : ins = fun r => rotBox2 p (bs r) := funext hins
  let C : Call2 := { w := c.w, ins, outs, nqty := 2, permute := q, packflag := c.st.packflag,
                     collective := coll, inst, ai, ao }
  let obj : Nat → RemapObj ℝ PackPlan2 := fun r => (mkRemap2 (α := ℝ) (c.on r) inst coll ins outs q).obj
  have hv : C.Valid c.P :=
    { disjoint := by
        change Disjoint2 c.P ins
        rw [ei]; exact rotBox2_disjoint p T.disjoint
      nqty := (by decide : (1 : Int) ≤ 2)
      permute := hq
      packflag := hst }
  have hset : C.Setup c.P obj := by
    intro r hr
    obtain ⟨o, ho⟩ := remapSetup2_some (α := ℝ) hst hr coll ins outs hq
    change remapSetup (dim2 c.w) c.P r ins outs 2 q c.st.packflag coll =
      some ((remapSetup (dim2 c.w) c.P r ins outs 2 q c.st.packflag coll).getD dummyObj2)
    rw [ho]; rfl
  have hf : C.Fits c.P obj m :=
    { inp := by
        intro r hr
        change accessible ((m r).ub ai) 0 (2 * (ins r).count)
        rw [hins, rotBox2_count]
        exact holdsBox2_accessible hp (hX r hr)
      out := by
        intro r hr
        change accessible ((m r).ub ao) 0 (2 * (outs r).count)
        rw [houts, rotBox2_count]
        intro x h0 h1
        exact hd r hr x h0 (by have := hsize r hr; omega)
      sb := hsb
      rb := hrb }
  obtain ⟨m', h1, h2, h3⟩ := remap2_main e hv hset hf
  refine ⟨m', ⟨h1, h3, h2.other, ?_⟩, ?_⟩
  · intro r hr x hx
    apply h2.frame r hr
    intro i j y hh hy he
    have hr' := addr2_range (permute := q) hq hh hy
    have := hsize r hr
    have hc : (outs r).count = (bs' r).count := by rw [houts, rotBox2_count]
    change x = addr2 q (outs r) 2 i j y at he
    change 0 ≤ addr2 q (outs r) 2 i j y ∧ addr2 q (outs r) 2 i j y < 2 * (outs r).count at hr'
    omega
  · intro r hr i j hh
    obtain ⟨w1, w2⟩ := T'.inside r hr i j hh
    obtain ⟨t, ht, hht⟩ := T.owner i j w1 w2
    have mv : ∀ y, (0 ≤ y ∧ y < 2) → (m' r).ub ao (addr2 s (bs' r) 2 i j y) =
        (m t).ub ai (addr2 p (bs t) 2 i j y) := by
      intro y hy
      have := h2.moved t ht r hr (rotPt2 p i j).1 (rotPt2 p i j).2 y
        (by change (ins t).Has _ _; rw [hins, rotBox2_has]; exact hht)
        (by change (outs r).Has _ _; rw [houts, rotBox2_has]; exact hh) hy
      change (m' r).ub ao (addr2 q (outs r) 2 _ _ y) = (m t).ub ai (addr2 0 (ins t) 2 _ _ y) at this
      rwa [hins, houts, addr2_comp hp hq hs,
        addr2_comp hp (Or.inl rfl) (s := p) (by rcases hp with rfl | rfl <;> rfl)] at this
    obtain ⟨g1, g2⟩ := hX t ht i j hht
    exact ⟨(mv 0 (by decide)).trans g1, (mv 1 (by decide)).trans g2⟩

/-! ## Local stages -/

/-- 1d transform along the coordinate that is stored fastest. -/
def fftAlong2 (permute : Int) (n : Nat) (back : Bool) (X : Grid2) : Grid2 := fun i j =>
  if permute = 0 then dft1 n back (fun t => X t j) i.toNat
  else dft1 n back (fun t => X i t) j.toNat

theorem fftAlong2_lift {p : Int} (hp : p = 0 ∨ p = 1) (n : Nat) (back : Bool) (X : Grid2) :
    fftAlong p n back (liftGrid X) = liftGrid (fftAlong2 p n back X) := by
  funext i j k
  rcases hp with rfl | rfl <;> simp [fftAlong, fftAlong2, liftGrid]

/-- 1d FFTs on all ranks. -/
theorem fftStep2 (e : Bool) {P : Nat} {size : Nat → Int} {ao : Nat} {p : Int} (hp : p = 0 ∨ p = 1)
    {bs : Nat → Box2} {plan : Nat → Fft1d} {n : Nat}
    (hplan : ∀ r < P, BoxPlan p (bs r).lift (plan r) n)
    (hsize : ∀ r < P, (bs r).count ≤ size r) (hprop : ∀ r < P, (bs r).Proper) (J : Nat → Junk) (flag : Int)
    {X : Grid2} {m : Nat → LMem ℝ} (hX : Holds2 P p bs ao X m) :
    ∃ m', Step e P size ao (fun r => [.loc (performLoc (J r) flag (plan r) ao)]) m m' ∧
      Holds2 P p bs ao (fftAlong2 p n (decide (flag ≠ 1)) X) m' := by
  obtain ⟨m', h1, h2⟩ := fftStep e (size := size) hplan (by
    intro r hr
    have hb : (bs r).lift.Proper := ⟨(hprop r hr).1, (hprop r hr).2, by rw [Box2.lift_ksize]; decide⟩
    rw [vol_eq_count hb, Box2.lift_count]
    exact hsize r hr) J flag ((holds2_lift hp).mp hX)
  refine ⟨m', h1, (holds2_lift hp).mpr ?_⟩
  rw [← fftAlong2_lift hp]
  exact h2

/-- Each rank's array holds `X`, but only the first `num r` complex numbers have been multiplied by `s`. -/
def HoldsScaled2 (P : Nat) (p : Int) (bs : Nat → Box2) (n : Nat) (X : Grid2) (s : ℝ) (num : Nat → Int)
    (m : Nat → LMem ℝ) : Prop :=
  ∀ r < P, HoldsBox2 p (bs r)
    (fun i j => if addr2 p (bs r) 1 i j 0 < num r then (s : ℂ) * X i j else X i j) ((m r).ub n)

theorem HoldsScaled2.all {P : Nat} {p : Int} (hp : p = 0 ∨ p = 1) {bs : Nat → Box2} {n : Nat} {X : Grid2}
    {s : ℝ} {num : Nat → Int} {m : Nat → LMem ℝ} (h : HoldsScaled2 P p bs n X s num m)
    (hn : ∀ r < P, (bs r).count ≤ num r) : Holds2 P p bs n (fun i j => (s : ℂ) * X i j) m := by
  intro r hr i j hh
  have := h r hr i j hh
  have hlt : addr2 p (bs r) 1 i j 0 < num r := by
    have h1 := addr2_range (permute := p) (nqty := 1) (q := 0) hp hh (by decide)
    have h3 := hn r hr
    omega
  simpa [hlt] using this

/-- `scale_ffts` on every rank. -/
theorem scaleStep2 (e : Bool) {P : Nat} {size : Nat → Int} {ao : Nat} {p : Int} (hp : p = 0 ∨ p = 1)
    {bs : Nat → Box2} {X : Grid2}
    {m : Nat → LMem ℝ} (norm : ℝ) (num : Nat → Int) (hX : Holds2 P p bs ao X m)
    (h0 : ∀ r < P, 0 ≤ num r) (hnum : ∀ r < P, num r ≤ size r)
    (hd : ∀ r < P, accessible ((m r).ub ao) 0 (2 * size r)) (fn : Nat → ℝ) (fnum : Nat → Int)
    (e1 : ∀ r < P, fn r = norm) (e2 : ∀ r < P, fnum r = num r) :
    ∃ m', Step e P size ao (fun r => [.loc (scaleLoc (fn r) (fnum r) ao)]) m m' ∧
      HoldsScaled2 P p bs ao X norm num m' := by
  obtain ⟨m', h1, h2⟩ := scaleStep e (size := size) norm num ((holds2_lift hp).mp hX) h0 hnum hd fn fnum e1 e2
  refine ⟨m', h1, ?_⟩
  intro r hr i j hh
  have := h2 r hr i j 0 (Box2.lift_has.mpr ⟨hh, rfl⟩)
  simpa only [addr2_lift hp, liftGrid] using this

/-! ## The object of `setup`, as needed by the stages -/

/-- What `setup` has established, on all ranks. -/
structure Ready2 (c : Create2) (f : Nat → Fft2 ℝ) : Prop where
  args : c.a.Valid c.P
  st : c.st.Valid2 c.w
  grids : BrickOK c.P c.g c.st.exchange
  same : ∀ r < c.P, (f r).same = inoutSame2 c.P c.a
  prefast : ∀ r < c.P, (f r).prefast = (c.on r).prefastO
  fastslow : ∀ r < c.P, (f r).fastslow = some (c.on r).fastslowP
  postslow : ∀ r < c.P, (f r).postslow = (c.on r).postslowO
  preslow : ∀ r < c.P, (f r).preslow = if inoutSame2 c.P c.a then none else (c.on r).preslowO
  slowfast : ∀ r < c.P, (f r).slowfast = if inoutSame2 c.P c.a then none else some (c.on r).slowfastP
  postfast : ∀ r < c.P, (f r).postfast = if inoutSame2 c.P c.a then none else (c.on r).postfastO
  insize : ∀ r < c.P, (f r).insize = boxSize2 (c.a.ins r)
  outsize : ∀ r < c.P, (f r).outsize = boxSize2 (c.a.outs r)
  fftsize : ∀ r < c.P, (f r).fftsize = fftSize2 (c.on r)
  norm : ∀ r < c.P, (f r).norm = 1 / (c.a.nfast * c.a.nslow : ℝ)
  normnum : ∀ r < c.P, (f r).normnum = boxSize2 (c.a.outs r)
  fwd : ∀ r < c.P, ∀ x ∈ (c.on r).fwdSizes (α := ℝ),
    x.obj.sendsize ≤ (f r).sendsize ∧ x.obj.recvsize ≤ (f r).recvsize
  inv : inoutSame2 c.P c.a = false → ∀ r < c.P, ∀ x ∈ (c.on r).invSizes (α := ℝ),
    x.obj.sendsize ≤ (f r).sendsize ∧ x.obj.recvsize ≤ (f r).recvsize
  planFast : ∀ r < c.P, BoxPlan 0 (c.fast r).lift (f r).fftFast c.a.nfast.toNat
  planSlow : ∀ r < c.P, BoxPlan 1 (c.slow r).lift (f r).fftSlow c.a.nslow.toNat

theorem ready2_of_main {c : Create2} {f : Nat → Fft2 ℝ} (hv : c.a.Valid c.P) (hst : c.st.Valid2 c.w)
    (hg : BrickOK c.P c.g c.st.exchange) (hf : ∀ r < c.P, setupMain2 (c.on r) = some (f r)) :
    Ready2 c f := by
  have key : ∀ r < c.P, ∃ x z, setupFfts2 (c.on r) = some (x, z) ∧ f r =
        { same := inoutSame2 c.P c.a
          prefast := (c.on r).prefastO, fastslow := some (c.on r).fastslowP
          postslow := (c.on r).postslowO
          preslow := if inoutSame2 c.P c.a then none else (c.on r).preslowO
          slowfast := if inoutSame2 c.P c.a then none else some (c.on r).slowfastP
          postfast := if inoutSame2 c.P c.a then none else (c.on r).postfastO
          insize := boxSize2 (c.a.ins r), outsize := boxSize2 (c.a.outs r)
          fftsize := fftSize2 (c.on r)
          sendsize := (((c.on r).fwdSizes (α := ℝ) ++
            if inoutSame2 c.P c.a then [] else (c.on r).invSizes).foldl bump2 (0, 0)).1
          recvsize := (((c.on r).fwdSizes (α := ℝ) ++
            if inoutSame2 c.P c.a then [] else (c.on r).invSizes).foldl bump2 (0, 0)).2
          fftFast := x, fftSlow := z
          norm := 1 / (c.a.nfast * c.a.nslow : ℝ)
          normnum := boxSize2 (c.a.outs r) } := by
    intro r hr
    obtain ⟨x, z, h1, h2⟩ := setupMain2_eq (α := ℝ) (c := c.on r) hst hr hv.fast hv.slow hv.permute
    rw [hf r hr] at h2
    exact ⟨x, z, h1, Option.some.inj h2⟩
  have sz : ∀ r < c.P, ∀ x ∈ (c.on r).fwdSizes (α := ℝ) ++
      (if inoutSame2 c.P c.a then [] else (c.on r).invSizes),
      x.obj.sendsize ≤ (f r).sendsize ∧ x.obj.recvsize ≤ (f r).recvsize := by
    intro r hr x hx
    obtain ⟨_, _, _, h⟩ := key r hr
    rw [h]
    exact (foldl_bump2_le _ _).2.2 x hx
  have plans : ∀ r < c.P, BoxPlan 0 (c.fast r).lift (f r).fftFast c.a.nfast.toNat ∧
      BoxPlan 1 (c.slow r).lift (f r).fftSlow c.a.nslow.toNat := by
    intro r hr
    obtain ⟨x, z, h1, h⟩ := key r hr
    obtain ⟨x', z', k1, k2, k4⟩ := setupFfts2_ok (c := c.on r) hv.fast hv.slow
    rw [h1] at k1
    cases k1
    have e1 := hv.fast
    have e3 := hv.slow
    have f1 := fastBox2_full (P := c.P) (a := c.a) hr
    have f3 := slowBox2_full (P := c.P) (a := c.a) hr
    have p1 := fastBox2_proper hv hr
    have p3 := slowBox2_proper hv hr
    rw [h]
    refine ⟨boxPlan_mk (R := (c.fast r).lift) rfl f1.1 f1.2 p1.2 (by rw [Box2.lift_ksize]; decide) e1 k2.1 ?_
        k2.2.2.1 k2.2.2.2,
      boxPlan_mk (R := jki (c.slow r).lift) rfl f3.1 f3.2 (by decide : (0 : Int) ≤ 1) p3.1 e3 k4.1 ?_
        k4.2.2.1 k4.2.2.2⟩
    · refine k2.2.1.trans ?_
      change (c.fast r).jsize * c.a.nfast = (c.fast r).jsize * 1 * c.a.nfast
      ring
    · refine k4.2.1.trans ?_
      change (c.slow r).isize * c.a.nslow = 1 * (c.slow r).isize * c.a.nslow
      ring
  constructor
  case args => exact hv
  case st => exact hst
  case grids => exact hg
  case fwd => exact fun r hr x hx => sz r hr x (List.mem_append_left _ hx)
  case inv =>
    intro hs r hr x hx
    exact sz r hr x (List.mem_append_right _ (by rw [hs]; simpa using hx))
  case planFast => exact fun r hr => (plans r hr).1
  case planSlow => exact fun r hr => (plans r hr).2
  all_goals
    intro r hr
    obtain ⟨_, _, _, h⟩ := key r hr
    rw [h]

end FftMpi
