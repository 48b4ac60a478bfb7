import Verif.LifecycleHist
import Verif.PropsFft2dMore
import Verif.PropsRemapLife

/-!
# The plan of `FFT2d` satisfies what the life cycle needs

Builds with `FFT_SCALAR = double` (`w = 1`): with `float`, `packflag = 2` is undefined in 2d (C13).
-/

noncomputable section

namespace FftMpi

def RemapPair2.pskel (P : Nat) (p : RemapPair2 ℝ) : PSkel where
  main := p.remap2d.obj.skel P
  mainColl := p.remap2d.collective
  extra := p.extra.map fun x => (x.obj.skel P, x.collective)

/-- The numbers of a set up `FFT2d` on `P` ranks. -/
def Fft2.fskel (P : Nat) (a : Args2) (f : Fft2 ℝ) : FSkel where
  same := f.same
  fwd := [f.prefast, f.fastslow, f.postslow].map (Option.map (RemapPair2.pskel P))
  inv := [f.preslow, f.slowfast, f.postfast].map (Option.map (RemapPair2.pskel P))
  nfast := a.nfast
  nmid := 0
  nslow := a.nslow
  fftsize := f.fftsize
  sendsize := f.sendsize
  recvsize := f.recvsize

/-- `setup` of `FFT2d` on rank `me` of `P`. -/
def plan2 (P me : Nat) : PlanFn Args2 := fun a st =>
  (fft2Setup (α := ℝ) 1 P me a st).map fun
    | .error e => .error e
    | .ok f => .ok (f.fskel P a)

theorem GoodSettings.valid2 {st : Settings} (h : GoodSettings st) : st.Valid2 1 := by
  obtain ⟨-, -, h⟩ := h
  unfold Settings.Valid2 FlagOk2
  simp only [and_true]
  omega

theorem mkRemap2_skel {c : Create2} (hst : c.st.Valid2 c.w) (hme : c.me < c.P) (inst : Nat) (coll : Bool)
    (ins outs : Nat → Box2) {permute : Int} (hp : permute = 0 ∨ permute = 1)
    (hout : (outs c.me).Proper) :
    ((mkRemap2 (α := ℝ) c inst coll ins outs permute).obj.skel c.P).OK := by
  obtain ⟨o, ho⟩ := remapSetup2_some (α := ℝ) hst hme coll ins outs hp
  simp only [mkRemap2, ho, Option.getD_some]
  refine (remapSetup_skel (sizesOK2 (by decide)) ?_ ho).1
  show 0 ≤ (2 : Int) * _ * _
  exact mul_nonneg (mul_nonneg (by decide) hout.1) hout.2

theorem ji_proper {b : Box2} (h : b.Proper) : (ji b).Proper := ⟨h.2, h.1⟩

theorem Ready2.skel {c : Create2} {f : Nat → Fft2 ℝ} (R : Ready2 c f) {r : Nat} (hr : r < c.P) :
    ∀ x ∈ (f r).remaps, (x.obj.skel c.P).OK := by
  have hst : (c.on r).st.Valid2 (c.on r).w := R.st
  have hme : (c.on r).me < (c.on r).P := hr
  have p1 : ((c.on r).fast (c.on r).me).Proper := fastBox2_proper R.args hr
  have p3 : ((c.on r).slow (c.on r).me).Proper := slowBox2_proper R.args hr
  have p4 : ((c.on r).brick (c.on r).me).Proper := brickBox2_proper r
  have p5 : ((c.on r).a.ins (c.on r).me).Proper := (R.args.properIn r hr).1
  have p6 : ((c.on r).a.outs (c.on r).me).Proper := R.args.properOut r hr
  have hnp : (newpermute2 (c.on r).a.permute).getD 0 = 0 ∨ (newpermute2 (c.on r).a.permute).getD 0 = 1 := by
    have hp : c.a.permute = 0 ∨ c.a.permute = 1 := R.args.permute
    have : (c.on r).a.permute = c.a.permute := rfl
    rw [this]
    rcases hp with h | h <;> rw [h] <;> simp [newpermute2]
  have key : ∀ inst coll ins (outs : Nat → Box2) permute, (permute = 0 ∨ permute = 1) →
      (outs (c.on r).me).Proper → ((mkRemap2 (α := ℝ) (c.on r) inst coll ins outs permute).obj.skel c.P).OK :=
    fun inst coll ins outs permute hp hq => mkRemap2_skel hst hme inst coll ins outs hp hq
  intro x hx
  have mem : x ∈ (c.on r).fwdSizes ∨ x ∈ (c.on r).invSizes := by
    unfold Fft2.remaps at hx
    rw [R.prefast r hr, R.fastslow r hr, R.postslow r hr, R.preslow r hr, R.slowfast r hr, R.postfast r hr] at hx
    rw [List.append_assoc, List.append_assoc] at hx
    rcases List.mem_append.mp hx with h | h
    · exact Or.inl (objs2_fwd _ x h)
    · rw [← List.append_assoc] at h
      cases hs : inoutSame2 c.P c.a with
      | true => rw [hs] at h; simp [pairObjs2] at h
      | false =>
        rw [hs] at h
        simp only [Bool.false_eq_true, if_false] at h
        exact Or.inr (objs2_inv _ x h)
  rcases mem with h | h
  · unfold Create2.fwdSizes at h
    simp only [List.mem_append, or_assoc] at h
    rcases h with h | h | h
    · split_ifs at h
      · simp only [List.mem_singleton] at h
        rw [h]; exact key _ _ _ _ _ (by decide) p1
      · simp at h
    · split_ifs at h
      · simp only [List.mem_singleton] at h
        rw [h]; exact key _ _ _ _ _ (by decide) p3
      · simp only [List.mem_cons, List.not_mem_nil, or_false] at h
        rcases h with h | h
        · rw [h]; exact key _ _ _ _ _ (by decide) p4
        · rw [h]; exact key _ _ _ _ _ (by decide) p3
    · split_ifs at h
      · simp only [List.mem_singleton] at h
        rw [h]; exact key _ _ _ _ _ hnp (ji_proper p6)
      · simp at h
  · unfold Create2.invSizes at h
    simp only [List.mem_append, or_assoc] at h
    rcases h with h | h | h
    · split_ifs at h
      · simp only [List.mem_singleton] at h
        rw [h]
        unfold Create2.preslowR
        split_ifs
        · exact key _ _ _ _ _ (by decide) p3
        · exact key _ _ _ _ _ (by decide) (ji_proper p3)
      · simp at h
    · split_ifs at h
      · simp only [List.mem_singleton] at h
        rw [h]; exact key _ _ _ _ _ (by decide) (ji_proper p1)
      · simp only [List.mem_cons, List.not_mem_nil, or_false] at h
        rcases h with h | h
        · rw [h]; exact key _ _ _ _ _ (by decide) (ji_proper p4)
        · rw [h]; exact key _ _ _ _ _ (by decide) (ji_proper p1)
    · split_ifs at h
      · simp only [List.mem_singleton] at h
        rw [h]; exact key _ _ _ _ _ (by decide) p5
      · simp at h

theorem pairsFit_of2 {P : Nat} {ss rs : Int} {l : List (Option (RemapPair2 ℝ))}
    (h : ∀ p ∈ l, ∀ x ∈ pairObjs2 p, (x.obj.skel P).OK ∧ x.obj.sendsize ≤ ss ∧ x.obj.recvsize ≤ rs) :
    PairsFit ss rs (l.map (Option.map (RemapPair2.pskel P))) := by
  intro k hk
  obtain ⟨p, hp, e⟩ := List.mem_map.1 hk
  obtain ⟨q, rfl, rfl⟩ := Option.map_eq_some_iff.1 e
  refine ⟨h _ hp q.remap2d (by simp [pairObjs2]), ?_⟩
  intro ke hke
  obtain ⟨x, hx, rfl⟩ := Option.map_eq_some_iff.1 hke
  exact h _ hp x (by simp [pairObjs2, hx])

theorem Ready2.fskel_ok {c : Create2} {f : Nat → Fft2 ℝ} (R : Ready2 c f) {r : Nat} (hr : r < c.P) :
    ((f r).fskel c.P c.a).OK .d2 := by
  have fit : ∀ x ∈ (f r).remaps, (x.obj.skel c.P).OK ∧ x.obj.sendsize ≤ (f r).sendsize ∧
      x.obj.recvsize ≤ (f r).recvsize := fun x hx => ⟨R.skel hr x hx, R.all_fit hr x hx⟩
  have h0 : 0 ≤ (f r).fftsize := by
    have h1 := (R.insize_range hr).1
    have h2 := (R.insize_range hr).2
    omega
  obtain ⟨k0, k1, k2⟩ := fit (c.on r).fastslowP.remap2d (by
    simp [Fft2.remaps, R.fastslow r hr, pairObjs2])
  refine ⟨rfl, rfl, pairsFit_of2 ?_, pairsFit_of2 ?_, h0, le_trans k0.sendsize k1, le_trans k0.recvsize k2⟩
  · intro p hp x hx
    refine fit x ?_
    simp only [List.mem_cons, List.not_mem_nil, or_false] at hp
    simp only [Fft2.remaps, List.mem_append]
    rcases hp with rfl | rfl | rfl <;> simp only [hx, true_or, or_true]
  · intro p hp x hx
    refine fit x ?_
    simp only [List.mem_cons, List.not_mem_nil, or_false] at hp
    simp only [Fft2.remaps, List.mem_append]
    rcases hp with rfl | rfl | rfl <;> simp only [hx, true_or, or_true]

/-- The configuration of the life cycle for `FFT2d` on rank `me` of `P`; destructors may use the deleted member
`memory`. -/
def cfg2 (lib : Option Package) (P me : Nat) (z : TypeSizes) : Cfg Args2 where
  cls := .d2
  z := z
  plan := plan2 P me
  strict := false
  lib := lib

/-- `setup` rejects the arguments. -/
def bad2 (P : Nat) (a : Args2) : Bool := (setupCheck2 P a).isSome

/-- Arguments that `setup` rejects, or valid ones. -/
def FineArgs2 (P : Nat) (a : Args2) : Prop := (∃ e, setupCheck2 P a = some e) ∨ a.Valid P

theorem argsOK2 {lib : Option Package} {P me : Nat} (hme : me < P) (z : TypeSizes) {a : Args2} (h : FineArgs2 P a) :
    PlanArgs (cfg2 lib P me z) (bad2 P) a := by
  rcases h with ⟨e, h⟩ | hv
  · refine ⟨fun hb => by simp [bad2, h] at hb, fun _ st _ => ⟨e, ?_⟩⟩
    simp [cfg2, plan2, fft2Setup, h]
  · have key : ∀ st, GoodSettings st → ∃ f, fft2Setup 1 P me a st = some (.ok f) ∧ (f.fskel P a).OK .d2 := by
      intro st hg
      obtain ⟨f, S⟩ := setUp2_exists hv hg.valid2
      obtain ⟨c, -, rfl, rfl, rfl, -, R⟩ := S.ready
      exact ⟨f me, S.result me hme, R.fskel_ok hme⟩
    refine ⟨fun _ st hg => ?_, fun hb => ?_⟩
    · obtain ⟨f, e, hk⟩ := key st hg
      refine ⟨f.fskel P a, ?_, hk⟩
      simp [cfg2, plan2, e]
    · exfalso
      obtain ⟨f, e, -⟩ := key ⟨0, 0, 0⟩ ⟨by decide, by decide, by decide⟩
      unfold bad2 at hb
      obtain ⟨x, hx⟩ := Option.isSome_iff_exists.1 hb
      simp [fft2Setup, hx] at e

end FftMpi
