import Verif.Remap3dGeom
import Verif.RemapColl

/-!
# 3d remaps: specification of one call and of a sequence of calls
-/

namespace FftMpi

variable {α : Type}

/-- Number of grid points of a box. -/
def Box3.count (b : Box3) : Int := max b.isize 0 * max b.jsize 0 * max b.ksize 0

/-- One remap call made by all ranks: the arguments of `setup` on every rank, the settings, and the
numbers of the user arrays passed as `in` and `out`. -/
structure Call3 where
  ins : Nat → Box3
  outs : Nat → Box3
  nqty : Int
  permute : Int
  packflag : Int
  collective : Bool
  inst : Nat
  ai : Nat
  ao : Nat

/-- The settings are among the documented ones and no input datum has two owners. -/
structure Call3.Valid (P : Nat) (c : Call3) : Prop where
  disjoint : Disjoint3 P c.ins
  nqty : 1 ≤ c.nqty
  permute : c.permute = 0 ∨ c.permute = 1 ∨ c.permute = 2
  packflag : c.packflag = 0 ∨ c.packflag = 1 ∨ c.packflag = 2

/-- `obj r` is the remap object of rank `r` after `setup`. -/
def Call3.Setup (P : Nat) (c : Call3) (obj : Nat → RemapObj α PackPlan3) : Prop :=
  ∀ r < P, remapSetup dim3 P r c.ins c.outs c.nqty c.permute c.packflag c.collective = some (obj r)

/-- The program of rank `r` for the call. -/
def Call3.prog (c : Call3) (obj : Nat → RemapObj α PackPlan3) (r : Nat) : List (Instr α) :=
  (obj r).prog c.collective c.inst c.ai c.ao

/-- The arrays hold `nqty` values for every point of the boxes, the buffers have the sizes that
`setup` returned. -/
structure Call3.Fits (P : Nat) (c : Call3) (obj : Nat → RemapObj α PackPlan3) (m : Nat → LMem α) :
    Prop where
  inp : ∀ r < P, accessible ((m r).ub c.ai) 0 (c.nqty * (c.ins r).count)
  out : ∀ r < P, accessible ((m r).ub c.ao) 0 (c.nqty * (c.outs r).count)
  sb : ∀ r < P, accessible (m r).sb 0 (obj r).sendsize
  rb : ∀ r < P, accessible (m r).rb 0 (obj r).recvsize

/-- **Specification of a remap**: `u r n` is array `n` of rank `r` before, `u' r n` after. -/
structure Call3.Post (P : Nat) (c : Call3) (u u' : Nat → Nat → Mem α) : Prop where
  /-- every value that rank `a` had for a point of rank `b`'s output box is there afterwards -/
  moved : ∀ a < P, ∀ b < P, ∀ i j k q, (c.ins a).Has i j k → (c.outs b).Has i j k →
    (0 ≤ q ∧ q < c.nqty) →
    u' b c.ao (addr3 c.permute (c.outs b) c.nqty i j k q) =
      u a c.ai (addr3 0 (c.ins a) c.nqty i j k q)
  /-- nothing else in the output array changes -/
  frame : ∀ b < P, ∀ x, (∀ i j k q, (c.outs b).Has i j k → (0 ≤ q ∧ q < c.nqty) →
      x ≠ addr3 c.permute (c.outs b) c.nqty i j k q) → u' b c.ao x = u b c.ao x
  /-- points that nobody owned keep their old value -/
  hole : ∀ b < P, ∀ i j k q, (c.outs b).Has i j k → (0 ≤ q ∧ q < c.nqty) →
    (∀ a < P, ¬ (c.ins a).Has i j k) →
    u' b c.ao (addr3 c.permute (c.outs b) c.nqty i j k q) =
      u b c.ao (addr3 c.permute (c.outs b) c.nqty i j k q)
  /-- no other array changes -/
  other : ∀ b < P, ∀ n, n ≠ c.ao → u' b n = u b n

theorem Box3.count_of_has {b : Box3} {i j k : Int} (h : b.Has i j k) : b.count = b.vol := by
  unfold Box3.Has at h
  unfold Box3.count Box3.vol Box3.isize Box3.jsize Box3.ksize
  rw [max_eq_left (by omega), max_eq_left (by omega), max_eq_left (by omega)]

theorem Call3.Fits.memOK {P : Nat} {c : Call3} {obj : Nat → RemapObj α PackPlan3}
    {m : Nat → LMem α} (h : c.Fits P obj m) :
    MemOK P (src3 c.ins c.outs c.nqty) (dst3 c.permute c.ins c.outs c.nqty) c.ai c.ao m
      (fun r => (obj r).sendsize) (fun r => (obj r).recvsize) where
  inp := by
    intro a ha b _ x hx
    obtain ⟨⟨i, j, k, q⟩, h1, rfl⟩ := List.mem_map.mp hx
    rw [mem_boxPts, inter3_has] at h1
    have hr := addr3_range (permute := 0) h1.1.1 h1.2
    rw [← Box3.count_of_has h1.1.1] at hr
    exact h.inp a ha _ hr.1 (by simpa using hr.2)
  out := by
    intro a _ b hb x hx
    obtain ⟨⟨i, j, k, q⟩, h1, rfl⟩ := List.mem_map.mp hx
    rw [mem_boxPts, inter3_has] at h1
    have hr := addr3_range (permute := c.permute) h1.1.2 h1.2
    rw [← Box3.count_of_has h1.1.2] at hr
    exact h.out b hb _ hr.1 (by simpa using hr.2)
  sb := h.sb
  rb := h.rb

/-- One call: it is a stage whose effect is `deliver`. -/
theorem remap3_stage (e : Bool) {P : Nat} {c : Call3} {obj : Nat → RemapObj α PackPlan3}
    {m : Nat → LMem α} (hv : c.Valid P) (hs : c.Setup P obj) (hf : c.Fits P obj m) :
    ∃ m', StageOK e P (c.prog obj) m m' ∧
      ∀ r < P, (m' r).ub = Function.update (m r).ub c.ao
          (deliver P (src3 c.ins c.outs c.nqty) (dst3 c.permute c.ins c.outs c.nqty) m c.ai c.ao r) ∧
        (∀ a, ((m' r).sb a).isSome = ((m r).sb a).isSome) ∧
        (∀ a, ((m' r).rb a).isSome = ((m r).rb a).isSome) :=
  remap_stage (geom3 hv.nqty hv.permute hv.packflag) (dst3_nodup hv.disjoint) e c.collective c.inst c.ai c.ao
    obj hs m hf.memOK

theorem deliver3_post {P : Nat} {c : Call3} {m m' : Nat → LMem α} (hv : c.Valid P)
    (hin : ∀ a < P, ∀ b < P, ∀ x ∈ src3 c.ins c.outs c.nqty a b, ((m a).ub c.ai x).isSome)
    (h : ∀ r < P, (m' r).ub = Function.update (m r).ub c.ao
      (deliver P (src3 c.ins c.outs c.nqty) (dst3 c.permute c.ins c.outs c.nqty) m c.ai c.ao r)) :
    c.Post P (fun r => (m r).ub) (fun r => (m' r).ub) := by
  have G := geom3 (α := α) (P := P) (ins := c.ins) (outs := c.outs) hv.nqty hv.permute hv.packflag
  constructor
  · intro a ha b hb i j k q h1 h2 hq
    simp only [h b hb, Function.update_self]
    exact deliver_get hb (fun a ha => hin a ha b hb) (fun a ha => G.len a ha b hb)
      (dst3_nodup hv.disjoint b hb) ha (boxPts (inter3 (c.ins a) (c.outs b)) c.nqty)
      (fun p => addr3 0 (c.ins a) c.nqty p.1 p.2.1 p.2.2.1 p.2.2.2)
      (fun p => addr3 c.permute (c.outs b) c.nqty p.1 p.2.1 p.2.2.1 p.2.2.2) rfl rfl (i, j, k, q)
      (by rw [mem_boxPts, inter3_has]; exact ⟨⟨h1, h2⟩, hq⟩)
  · intro b hb x hx
    simp only [h b hb, Function.update_self]
    apply deliver_other
    intro a ha hmem
    obtain ⟨⟨i, j, k, q⟩, h1, h2⟩ := List.mem_map.mp hmem
    rw [mem_boxPts, inter3_has] at h1
    exact hx i j k q h1.1.2 h1.2 h2.symm
  · intro b hb i j k q h1 hq h2
    simp only [h b hb, Function.update_self]
    apply deliver_other
    intro a ha hmem
    obtain ⟨⟨i', j', k', q'⟩, h3, h4⟩ := List.mem_map.mp hmem
    rw [mem_boxPts, inter3_has] at h3
    obtain ⟨rfl, rfl, rfl, rfl⟩ := addr3_inj h3.1.2 h3.2 h1 hq h4
    exact h2 a ha h3.1.1
  · intro b hb n hn
    simp only [h b hb, Function.update_of_ne hn]

/-- The accessible addresses do not change. -/
def SameDom (P : Nat) (m m' : Nat → LMem α) : Prop :=
  ∀ r < P, (∀ n a, ((m' r).ub n a).isSome = ((m r).ub n a).isSome) ∧
    (∀ a, ((m' r).sb a).isSome = ((m r).sb a).isSome) ∧
    (∀ a, ((m' r).rb a).isSome = ((m r).rb a).isSome)

theorem SameDom.refl (P : Nat) (m : Nat → LMem α) : SameDom P m m :=
  fun _ _ => ⟨fun _ _ => rfl, fun _ => rfl, fun _ => rfl⟩

theorem SameDom.trans {P : Nat} {m1 m2 m3 : Nat → LMem α} (h1 : SameDom P m1 m2)
    (h2 : SameDom P m2 m3) : SameDom P m1 m3 := by
  intro r hr
  obtain ⟨a1, a2, a3⟩ := h1 r hr
  obtain ⟨b1, b2, b3⟩ := h2 r hr
  exact ⟨fun n a => (b1 n a).trans (a1 n a), fun a => (b2 a).trans (a2 a), fun a => (b3 a).trans (a3 a)⟩

theorem accessible_congr {m m' : Mem α} {b n : Int} (h : ∀ a, (m' a).isSome = (m a).isSome)
    (ha : accessible m b n) : accessible m' b n := fun a h1 h2 => by rw [h]; exact ha a h1 h2

theorem Call3.Fits.congr {P : Nat} {c : Call3} {obj : Nat → RemapObj α PackPlan3}
    {m m' : Nat → LMem α} (h : c.Fits P obj m) (hd : SameDom P m m') : c.Fits P obj m' where
  inp r hr := accessible_congr ((hd r hr).1 _) (h.inp r hr)
  out r hr := accessible_congr ((hd r hr).1 _) (h.out r hr)
  sb r hr := accessible_congr (hd r hr).2.1 (h.sb r hr)
  rb r hr := accessible_congr (hd r hr).2.2 (h.rb r hr)

/-- One call, all facts. -/
theorem remap3_main (e : Bool) {P : Nat} {c : Call3} {obj : Nat → RemapObj α PackPlan3}
    {m : Nat → LMem α} (hv : c.Valid P) (hs : c.Setup P obj) (hf : c.Fits P obj m) :
    ∃ m', StageOK e P (c.prog obj) m m' ∧
      c.Post P (fun r => (m r).ub) (fun r => (m' r).ub) ∧ SameDom P m m' := by
  obtain ⟨m', h1, h2⟩ := remap3_stage e hv hs hf
  refine ⟨m', h1, deliver3_post hv hf.memOK.inp (fun r hr => (h2 r hr).1), ?_⟩
  intro r hr
  refine ⟨?_, (h2 r hr).2⟩
  intro n a
  rw [(h2 r hr).1]
  by_cases hn : n = c.ao
  · subst hn
    rw [Function.update_self]
    apply scatter_dom
    intro d hd
    obtain ⟨s, hs, hd⟩ := List.mem_flatMap.mp hd
    exact hf.memOK.out s (List.mem_range.mp hs) r hr d hd
  · rw [Function.update_of_ne hn]

/-! ## Sequences of calls -/

/-- The program of rank `r` for a sequence of calls. -/
def seqProg3 (l : List (Call3 × (Nat → RemapObj α PackPlan3))) (r : Nat) : List (Instr α) :=
  l.flatMap fun c => c.1.prog c.2 r

/-- The specification of a sequence of calls: each call does what `Post` says. -/
def Chain3 (P : Nat) : List Call3 → (Nat → Nat → Mem α) → (Nat → Nat → Mem α) → Prop
  | [], u, u' => ∀ r < P, u' r = u r
  | c :: l, u, u' => ∃ v, c.Post P u v ∧ Chain3 P l v u'

theorem remapSeq3_main (e : Bool) {P : Nat} (l : List (Call3 × (Nat → RemapObj α PackPlan3)))
    (m : Nat → LMem α) (hv : ∀ c ∈ l, c.1.Valid P) (hs : ∀ c ∈ l, c.1.Setup P c.2)
    (hf : ∀ c ∈ l, c.1.Fits P c.2 m) :
    ∃ m', StageOK e P (seqProg3 l) m m' ∧
      Chain3 P (l.map Prod.fst) (fun r => (m r).ub) (fun r => (m' r).ub) ∧ SameDom P m m' := by
  induction l generalizing m with
  | nil =>
    exact ⟨m, StageOK.nil m, fun _ _ => rfl, SameDom.refl P m⟩
  | cons c l ih =>
    obtain ⟨m1, h1, h2, h3⟩ := remap3_main e (hv c (by simp)) (hs c (by simp)) (hf c (by simp))
    obtain ⟨m2, h4, h5, h6⟩ := ih m1 (fun d hd => hv d (by simp [hd])) (fun d hd => hs d (by simp [hd]))
      (fun d hd => (hf d (by simp [hd])).congr h3)
    refine ⟨m2, ?_, ⟨_, h2, h5⟩, h3.trans h6⟩
    have := h1.append h4
    exact this.congr (fun r _ => by simp [seqProg3])

end FftMpi
