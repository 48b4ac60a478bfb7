import Verif.LifecycleHist
import Verif.PropsFft3dBuf
import Verif.PropsRemapLife

/-!
# The plan of `FFT3d` satisfies what the life cycle needs
-/

noncomputable section

namespace FftMpi

theorem GoodSettings.valid {st : Settings} (h : GoodSettings st) : st.Valid := by
  obtain ⟨-, -, h⟩ := h
  unfold Settings.Valid
  omega

theorem mkRemap_skel {c : Create} (hst : c.st.Valid) (hme : c.me < c.P) (inst : Nat) (coll : Bool)
    (ins outs : Nat → Box3) {permute : Int} (hp : permute = 0 ∨ permute = 1 ∨ permute = 2)
    (hout : (outs c.me).Proper) :
    ((mkRemap (α := ℝ) c inst coll ins outs permute).obj.skel c.P).OK := by
  obtain ⟨o, ho⟩ := remapSetup3_some (α := ℝ) hst hme coll ins outs hp
  simp only [mkRemap, ho, Option.getD_some]
  refine (remapSetup_skel (sizesOK3 (by decide)) ?_ ho).1
  show 0 ≤ (2 : Int) * _ * _ * _
  exact mul_nonneg (mul_nonneg (mul_nonneg (by decide) hout.1) hout.2.1) hout.2.2

/-- All remaps of an `FFT3d`. -/
def Fft3.allRemaps (f : Fft3 ℝ) : List (Remap3 ℝ) := f.mostRemaps ++ f.lastRemap

theorem jki_proper {b : Box3} (h : b.Proper) : (jki b).Proper := ⟨h.2.1, h.2.2, h.1⟩
theorem kij_proper {b : Box3} (h : b.Proper) : (kij b).Proper := ⟨h.2.2, h.1, h.2.1⟩

theorem Ready.skel {c : Create} {f : Nat → Fft3 ℝ} (R : Ready c f) {r : Nat} (hr : r < c.P) :
    ∀ x ∈ (f r).allRemaps, (x.obj.skel c.P).OK := by
  have hst : (c.on r).st.Valid := R.st
  have hme : (c.on r).me < (c.on r).P := hr
  have p1 : ((c.on r).fast (c.on r).me).Proper := fastBox_proper R.args R.grids hr
  have p2 : ((c.on r).mid (c.on r).me).Proper := midBox_proper R.args R.grids r
  have p3 : ((c.on r).slow (c.on r).me).Proper := slowBox_proper R.args R.grids hr
  have p4 : c.st.exchange ≠ 0 → ((c.on r).brick (c.on r).me).Proper := fun _ => brickBox_proper r
  have p5 : ((c.on r).a.ins (c.on r).me).Proper := (R.args.properIn r hr).1
  have p6 : ((c.on r).a.outs (c.on r).me).Proper := R.args.properOut r hr
  have hnp : (newpermute (c.on r).a.permute).getD 0 = 0 ∨ (newpermute (c.on r).a.permute).getD 0 = 1 ∨
      (newpermute (c.on r).a.permute).getD 0 = 2 := by
    have hp : c.a.permute = 0 ∨ c.a.permute = 1 ∨ c.a.permute = 2 := R.args.permute
    have : (c.on r).a.permute = c.a.permute := rfl
    rw [this]
    rcases hp with h | h | h <;> rw [h] <;> simp [newpermute]
  have key : ∀ inst coll ins (outs : Nat → Box3) permute, (permute = 0 ∨ permute = 1 ∨ permute = 2) →
      (outs (c.on r).me).Proper → ((mkRemap (α := ℝ) (c.on r) inst coll ins outs permute).obj.skel c.P).OK :=
    fun inst coll ins outs permute hp hq => mkRemap_skel hst hme inst coll ins outs hp hq
  intro x hx
  unfold Fft3.allRemaps at hx
  have mem : ∀ y : Remap3 ℝ, y ∈ (f r).mostRemaps ∨ y ∈ (f r).lastRemap →
      y ∈ (c.on r).fwdSizes ∨ y ∈ (c.on r).invSizes ∨ (c.st.exchange ≠ 0 ∧ y = (c.on r).midfastR2) := by
    intro y hy
    rcases hy with hy | hy
    · unfold Fft3.mostRemaps at hy
      rw [R.prefast r hr, R.fastmid r hr, R.midslow r hr, R.postslow r hr, R.preslow r hr, R.slowmid r hr,
        R.midfast r hr, R.postfast r hr] at hy
      simp only [List.mem_append, or_assoc] at hy
      rcases hy with h | h | h | h | h
      · exact Or.inl (objs_prefast _ y h)
      · exact Or.inl (objs_fastmid _ y h)
      · exact Or.inl (objs_midslow _ y h)
      · exact Or.inl (objs_postslow _ y h)
      · cases hs : inoutSame c.P c.a with
        | true => rw [hs] at h; simp [pairObjs] at h
        | false =>
          rw [hs] at h
          simp only [Bool.false_eq_true, if_false] at h
          refine Or.inr (Or.inl ?_)
          rcases h with h | h | h | h
          · exact objs_preslow _ y h
          · exact objs_slowmid _ y h
          · simp only [Option.map_some, Option.toList_some, List.mem_singleton] at h
            rw [h]; exact objs_midfast _
          · exact objs_postfast _ y h
    · refine Or.inr (Or.inr ?_)
      unfold Fft3.lastRemap at hy
      rw [R.midfast r hr] at hy
      cases hs : inoutSame c.P c.a with
      | true => rw [hs] at hy; simp at hy
      | false =>
        rw [hs] at hy
        have he : (c.on r).st.exchange = c.st.exchange := rfl
        by_cases h0 : c.st.exchange = 0
        · simp [Create.midfastP, he, h0, Create.single] at hy
        · refine ⟨h0, ?_⟩
          simpa [Create.midfastP, he, h0, Create.double] using hy
  have he : (c.on r).st.exchange = c.st.exchange := rfl
  rcases mem x (List.mem_append.1 hx) with h | h | h
  · unfold Create.fwdSizes at h
    simp only [List.mem_append, or_assoc] at h
    rcases h with h | h | h
    · split_ifs at h
      · simp only [List.mem_singleton] at h
        rw [h]; exact key _ _ _ _ _ (by decide) p1
      · simp at h
    · by_cases h0 : c.st.exchange = 0
      · rw [he, if_pos h0] at h
        simp only [List.mem_cons, List.not_mem_nil, or_false] at h
        rcases h with h | h
        · rw [h]; exact key _ _ _ _ _ (by decide) p2
        · rw [h]; exact key _ _ _ _ _ (by decide) (jki_proper p3)
      · rw [he, if_neg h0] at h
        simp only [List.mem_cons, List.not_mem_nil, or_false] at h
        rcases h with h | h | h | h
        · rw [h]; exact key _ _ _ _ _ (by decide) (p4 h0)
        · rw [h]; exact key _ _ _ _ _ (by decide) p2
        · rw [h]; exact key _ _ _ _ _ (by decide) (jki_proper (p4 h0))
        · rw [h]; exact key _ _ _ _ _ (by decide) (jki_proper p3)
    · split_ifs at h
      · simp only [List.mem_singleton] at h
        rw [h]; exact key _ _ _ _ _ hnp (kij_proper p6)
      · simp at h
  · unfold Create.invSizes at h
    simp only [List.mem_append, or_assoc] at h
    rcases h with h | h | h
    · split_ifs at h
      · simp only [List.mem_singleton] at h
        rw [h]
        unfold Create.preslowR
        split_ifs
        · exact key _ _ _ _ _ (by decide) p3
        · exact key _ _ _ _ _ (by decide) (jki_proper p3)
        · exact key _ _ _ _ _ (by decide) (kij_proper p3)
      · simp at h
    · by_cases h0 : c.st.exchange = 0
      · rw [he, if_pos h0] at h
        simp only [List.mem_cons, List.not_mem_nil, or_false] at h
        rcases h with h | h
        · rw [h]; exact key _ _ _ _ _ (by decide) (kij_proper p2)
        · rw [h]; exact key _ _ _ _ _ (by decide) (jki_proper p1)
      · rw [he, if_neg h0] at h
        simp only [List.mem_cons, List.not_mem_nil, or_false] at h
        rcases h with h | h | h
        · rw [h]; exact key _ _ _ _ _ (by decide) (kij_proper (p4 h0))
        · rw [h]; exact key _ _ _ _ _ (by decide) (kij_proper p2)
        · rw [h]; exact key _ _ _ _ _ (by decide) (jki_proper (p4 h0))
    · split_ifs at h
      · simp only [List.mem_singleton] at h
        rw [h]; exact key _ _ _ _ _ (by decide) p5
      · simp at h
  · rw [h.2]; exact key _ _ _ _ _ (by decide) (jki_proper p1)

/-- The buffers suffice for the remap that `setup` does not count (see `C25_false`). -/
def LastFits (f : Fft3 ℝ) : Prop :=
  ∀ x ∈ f.lastRemap, x.obj.sendsize ≤ f.sendsize ∧ x.obj.recvsize ≤ f.recvsize

theorem pairsFit_of {P : Nat} {ss rs : Int} {l : List (Option (RemapPair ℝ))}
    (h : ∀ p ∈ l, ∀ x ∈ pairObjs p, (x.obj.skel P).OK ∧ x.obj.sendsize ≤ ss ∧ x.obj.recvsize ≤ rs) :
    PairsFit ss rs (l.map (Option.map (RemapPair.pskel P))) := by
  intro k hk
  obtain ⟨p, hp, e⟩ := List.mem_map.1 hk
  obtain ⟨q, rfl, rfl⟩ := Option.map_eq_some_iff.1 e
  refine ⟨h _ hp q.remap3d (by simp [pairObjs]), ?_⟩
  intro ke hke
  obtain ⟨x, hx, rfl⟩ := Option.map_eq_some_iff.1 hke
  exact h _ hp x (by simp [pairObjs, hx])

theorem Ready.fskel_ok {c : Create} {f : Nat → Fft3 ℝ} (R : Ready c f) {r : Nat} (hr : r < c.P)
    (hl : LastFits (f r)) : ((f r).fskel c.P c.a).OK .d3 := by
  have fit : ∀ x ∈ (f r).allRemaps, (x.obj.skel c.P).OK ∧ x.obj.sendsize ≤ (f r).sendsize ∧
      x.obj.recvsize ≤ (f r).recvsize := by
    intro x hx
    refine ⟨R.skel hr x hx, ?_⟩
    rcases List.mem_append.1 hx with h | h
    · exact R.most_fit hr x h
    · exact hl x h
  have h0 : 0 ≤ (f r).fftsize := by
    have := count_nonneg (c.a.ins r); have := R.size_ins hr
    omega
  obtain ⟨k0, k1, k2⟩ := fit (c.on r).fastmidP.remap3d (by
    simp [Fft3.allRemaps, Fft3.mostRemaps, R.fastmid r hr, pairObjs])
  refine ⟨rfl, rfl, pairsFit_of ?_, pairsFit_of ?_, h0, le_trans k0.sendsize k1, le_trans k0.recvsize k2⟩
  · intro p hp x hx
    refine fit x ?_
    simp only [List.mem_cons, List.not_mem_nil, or_false] at hp
    simp only [Fft3.allRemaps, Fft3.mostRemaps, List.mem_append]
    rcases hp with rfl | rfl | rfl | rfl <;> simp only [hx, true_or, or_true]
  · intro p hp x hx
    refine fit x ?_
    simp only [List.mem_cons, List.not_mem_nil, or_false] at hp
    simp only [Fft3.allRemaps, Fft3.mostRemaps, List.mem_append]
    rcases hp with rfl | rfl | rfl | rfl
    · simp only [hx, true_or, or_true]
    · simp only [hx, true_or, or_true]
    · cases hm : (f r).midfast with
      | none => rw [hm] at hx; simp [pairObjs] at hx
      | some q =>
        rw [hm] at hx
        simp only [pairObjs, List.mem_cons] at hx
        rcases hx with rfl | hx
        · simp
        · simp [Fft3.lastRemap, hm, hx]
    · simp only [hx, true_or, or_true]

/-- The configuration of the life cycle for `FFT3d` on rank `me` of `P`; destructors may use the deleted member
`memory`. -/
def cfg3 (lib : Option Package) (P me : Nat) (z : TypeSizes) : Cfg Args3 where
  cls := .d3
  z := z
  plan := plan3 P me
  strict := false
  lib := lib

/-- `setup` rejects the arguments. -/
def bad3 (P : Nat) (a : Args3) : Bool := (setupCheck P a).isSome

/-- Arguments that `setup` rejects, or valid ones for which the buffers suffice. -/
def FineArgs3 (P me : Nat) (a : Args3) : Prop :=
  (∃ e, setupCheck P a = some e) ∨
    (a.Valid P ∧ ∀ st f, GoodSettings st → fft3Setup P me a st = some (.ok f) → LastFits f)

theorem argsOK3 {lib : Option Package} {P me : Nat} (hme : me < P) (z : TypeSizes) {a : Args3} (h : FineArgs3 P me a) :
    PlanArgs (cfg3 lib P me z) (bad3 P) a := by
  rcases h with ⟨e, h⟩ | ⟨hv, hl⟩
  · refine ⟨fun hb => by simp [bad3, h] at hb, fun _ st _ => ⟨e, ?_⟩⟩
    simp [cfg3, plan3, fft3Setup, h]
  · have key : ∀ st, GoodSettings st → ∃ f, fft3Setup P me a st = some (.ok f) ∧ (f.fskel P a).OK .d3 := by
      intro st hg
      obtain ⟨f, S⟩ := setUp3_exists hv hg.valid
      obtain ⟨c, rfl, rfl, rfl, -, R⟩ := S.ready
      exact ⟨f me, S.result me hme, R.fskel_ok hme (hl _ _ hg (S.result me hme))⟩
    refine ⟨fun _ st hg => ?_, fun hb => ?_⟩
    · obtain ⟨f, e, hk⟩ := key st hg
      refine ⟨f.fskel P a, ?_, hk⟩
      simp [cfg3, plan3, e]
    · exfalso
      obtain ⟨f, e, -⟩ := key ⟨0, 0, 0⟩ ⟨by decide, by decide, by decide⟩
      unfold bad3 at hb
      obtain ⟨x, hx⟩ := Option.isSome_iff_exists.1 hb
      simp [fft3Setup, hx] at e

/-- If the layouts are the same on input and output then the remap of `C25_false` does not exist. -/
theorem lastFits_of_same {P me : Nat} (hme : me < P) {a : Args3} (hv : a.Valid P) (hs : inoutSame P a = true)
    {st : Settings} {f : Fft3 ℝ} (hg : GoodSettings st) (h : fft3Setup P me a st = some (.ok f)) : LastFits f := by
  obtain ⟨f', S⟩ := setUp3_exists hv hg.valid
  obtain ⟨c, rfl, rfl, rfl, -, R⟩ := S.ready
  have e := S.result me hme
  rw [h] at e
  obtain rfl := Except.ok.inj (Option.some.inj e)
  intro x hx
  unfold Fft3.lastRemap at hx
  rw [R.midfast me hme, hs] at hx
  simp at hx

end FftMpi
