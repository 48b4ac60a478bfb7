import Verif.Fft3dPlan
import Verif.SpmdSettings

/-!
# FFT3d with different settings on the ranks
-/

noncomputable section

namespace FftMpi

variable {α : Type}

/-- The two remaps do the same. -/
structure Remap3.Alike (r r' : Remap3 α) : Prop where
  send : r.obj.sendsize = r'.obj.sendsize
  recv : r.obj.recvsize = r'.obj.recvsize
  prog : ∀ ai ao, r.prog ai ao = r'.prog ai ao

def RemapPair.Alike (p p' : RemapPair α) : Prop := ∀ ai ao, p.prog ai ao = p'.prog ai ao

def PairAlike : Option (RemapPair α) → Option (RemapPair α) → Prop
  | none, none => True
  | some p, some p' => p.Alike p'
  | _, _ => False

theorem RemapPair.alike_one {r r' : Remap3 α} (h : r.Alike r') : RemapPair.Alike ⟨r, none⟩ ⟨r', none⟩ := by
  intro ai ao
  unfold RemapPair.prog
  rw [h.prog]

theorem RemapPair.alike_two {r r' x x' : Remap3 α} (h : r.Alike r') (k : x.Alike x') :
    RemapPair.Alike ⟨r, some x⟩ ⟨r', some x'⟩ := by
  intro ai ao
  unfold RemapPair.prog
  dsimp only
  rw [h.prog, k.prog]

theorem bump_alike {r r' : Remap3 α} (h : r.Alike r') (s : Int × Int) : bump s r = bump s r' := by
  unfold bump
  rw [h.send, h.recv]

/-- The two objects have the same members apart from the remaps, and those do the same. -/
structure Fft3.Alike (f f' : Fft3 α) : Prop where
  same : f.same = f'.same
  prefast : PairAlike f.prefast f'.prefast
  fastmid : PairAlike f.fastmid f'.fastmid
  midslow : PairAlike f.midslow f'.midslow
  postslow : PairAlike f.postslow f'.postslow
  preslow : PairAlike f.preslow f'.preslow
  slowmid : PairAlike f.slowmid f'.slowmid
  midfast : PairAlike f.midfast f'.midfast
  postfast : PairAlike f.postfast f'.postfast
  insize : f.insize = f'.insize
  outsize : f.outsize = f'.outsize
  fftsize : f.fftsize = f'.fftsize
  sendsize : f.sendsize = f'.sendsize
  recvsize : f.recvsize = f'.recvsize
  fftFast : f.fftFast = f'.fftFast
  fftMid : f.fftMid = f'.fftMid
  fftSlow : f.fftSlow = f'.fftSlow
  norm : f.norm = f'.norm
  normnum : f.normnum = f'.normnum

theorem PairAlike.remapIf {p p' : Option (RemapPair α)} (h : PairAlike p p') (ai ao : Nat) :
    remapIf p ai ao = remapIf p' ai ao := by
  cases p <;> cases p'
  · rfl
  · exact absurd h id
  · exact absurd h id
  · exact h ai ao

theorem PairAlike.remapOrCopy {p p' : Option (RemapPair ℝ)} (h : PairAlike p p') (n : Int) (ai ao : Nat) :
    remapOrCopy p n ai ao = remapOrCopy p' n ai ao := by
  cases p <;> cases p'
  · rfl
  · exact absurd h id
  · exact absurd h id
  · exact h ai ao

/-- All methods that work with data do the same. -/
theorem Fft3.Alike.progs {f f' : Fft3 ℝ} (h : f.Alike f') :
    (∀ J scaled remaponly flag ai ao, f.compute J scaled remaponly flag ai ao = f'.compute J scaled remaponly flag ai ao) ∧
    (∀ J flag ai, f.only1d J flag ai = f'.only1d J flag ai) ∧
    (∀ flag ai ao, f.onlyRemaps flag ai ao = f'.onlyRemaps flag ai ao) ∧
    ∀ flag which ai ao, f.onlyOneRemap flag which ai ao = f'.onlyOneRemap flag which ai ao := by
  refine ⟨fun J scaled remaponly flag ai ao => ?_, fun J flag ai => ?_, fun flag ai ao => ?_, fun flag which ai ao => ?_⟩
  · unfold Fft3.compute
    rw [h.same, h.insize, h.outsize, h.fftFast, h.fftMid, h.fftSlow, h.norm, h.normnum]
    simp only [h.prefast.remapOrCopy, h.fastmid.remapIf, h.midslow.remapIf, h.postslow.remapIf, h.preslow.remapOrCopy,
      h.slowmid.remapIf, h.midfast.remapIf, h.postfast.remapIf]
  · unfold Fft3.only1d
    rw [h.fftFast, h.fftMid, h.fftSlow]
  · unfold Fft3.onlyRemaps
    rw [h.same, h.insize, h.outsize]
    simp only [h.prefast.remapOrCopy, h.fastmid.remapIf, h.midslow.remapIf, h.postslow.remapIf, h.preslow.remapOrCopy,
      h.slowmid.remapIf, h.midfast.remapIf, h.postfast.remapIf]
  · unfold Fft3.onlyOneRemap
    rw [h.same, h.insize, h.outsize]
    simp only [h.prefast.remapOrCopy, h.fastmid.remapIf, h.midslow.remapIf, h.postslow.remapIf, h.preslow.remapOrCopy,
      h.slowmid.remapIf, h.midfast.remapIf, h.postfast.remapIf]

/-- Results of `setup`. -/
def ExAlike {ρ : Type} (R : ρ → ρ → Prop) : Except SetupErr ρ → Except SetupErr ρ → Prop
  | .ok f, .ok f' => R f f'
  | .error e, .error e' => e = e'
  | _, _ => False

/-! ## `setup` with other values of `packflag` and `exchange` -/

/-- The same arguments with other settings. -/
def Here3.set (h : Here3) (pf ex : Int) : Here3 := { h with st := { h.st with packflag := pf, exchange := ex } }

section

variable {h : Here3} {pf ex : Int}

/-- A pair of remaps and the sizes so far. -/
def StepAlike (x y : Option (RemapPair α) × (Int × Int)) : Prop := PairAlike x.1 y.1 ∧ x.2 = y.2

def StepAlike' (x y : RemapPair α × (Int × Int)) : Prop := x.1.Alike y.1 ∧ x.2 = y.2

theorem Sim.newRemap3 (hv : h.st.packflag = 0 ∨ h.st.packflag = 1 ∨ h.st.packflag = 2) (hp : pf = 0 ∨ pf = 1 ∨ pf = 2)
    (inst : Nat) (c : Bool) (ib ob : Box3) {permute : Int} (hm : permute = 0 ∨ permute = 1 ∨ permute = 2) :
    Sim Remap3.Alike (h.newRemap (α := α) inst c ib ob permute) ((h.set pf ex).newRemap inst c ib ob permute) := by
  unfold Here3.newRemap
  refine Sim.bind (Sim.remap (sameCopy3 hv hp hm) _ _ _ _ _) fun o o' hA => .ret ⟨hA.send, hA.recv, fun ai ao => ?_⟩
  have := hA.prog o.coll c inst ai ao
  unfold Remap3.prog
  dsimp only
  rw [show ({ o with coll := o.coll } : RemapObj α PackPlan3) = o from rfl] at this
  rw [this, hA.coll]

variable (hv : h.st.packflag = 0 ∨ h.st.packflag = 1 ∨ h.st.packflag = 2) (hp : pf = 0 ∨ pf = 1 ∨ pf = 2)
  (he : h.st.exchange = 0 ↔ ex = 0)

include hv hp

theorem Sim.prefast3 (b : Boxes3) (s : Int × Int) :
    Sim StepAlike (h.prefast (α := α) b s) ((h.set pf ex).prefast b s) := by
  refine Sim.ite Iff.rfl ((Sim.newRemap3 hv hp _ _ _ _ (.inl rfl)).bind fun r r' hr => .ret ⟨?_, ?_⟩) (.ret ⟨trivial, rfl⟩)
  · exact RemapPair.alike_one hr
  · exact bump_alike hr s

theorem Sim.postfast3 (b : Boxes3) (s : Int × Int) :
    Sim StepAlike (h.postfast (α := α) b s) ((h.set pf ex).postfast b s) := by
  refine Sim.ite Iff.rfl ((Sim.newRemap3 hv hp _ _ _ _ (.inl rfl)).bind fun r r' hr => .ret ⟨?_, ?_⟩) (.ret ⟨trivial, rfl⟩)
  · exact RemapPair.alike_one hr
  · exact bump_alike hr s

theorem Sim.postslow3 (b : Boxes3) (s : Int × Int) :
    Sim StepAlike (h.postslow (α := α) b s) ((h.set pf ex).postslow b s) := by
  refine Sim.ite Iff.rfl ?_ (.ret ⟨trivial, rfl⟩)
  show Sim _ (Spmd.lift (newpermute h.permute) >>= _) (Spmd.lift (newpermute h.permute) >>= _)
  cases e : newpermute h.permute with
  | none => exact .ub
  | some np =>
    have hm : np = 0 ∨ np = 1 ∨ np = 2 := by
      unfold newpermute at e
      split at e
      · exact .inr (.inl (Option.some.inj e).symm)
      · split at e
        · exact .inr (.inr (Option.some.inj e).symm)
        · split at e
          · exact .inl (Option.some.inj e).symm
          · exact absurd e (by simp)
    refine (Sim.newRemap3 hv hp _ _ _ _ hm).bind fun r r' hr => .ret ⟨?_, ?_⟩
    · exact RemapPair.alike_one hr
    · exact bump_alike hr s

theorem Sim.preslow3 (b : Boxes3) (s : Int × Int) :
    Sim StepAlike (h.preslow (α := α) b s) ((h.set pf ex).preslow b s) := by
  refine Sim.ite Iff.rfl (Sim.bind (R := Remap3.Alike) ?_ fun r r' hr => .ret ⟨?_, ?_⟩) (.ret ⟨trivial, rfl⟩)
  · exact Sim.ite Iff.rfl (Sim.newRemap3 hv hp _ _ _ _ (.inr (.inr rfl))) (Sim.ite Iff.rfl
      (Sim.newRemap3 hv hp _ _ _ _ (.inr (.inl rfl))) (Sim.ite Iff.rfl (Sim.newRemap3 hv hp _ _ _ _ (.inl rfl)) .ub))
  · exact RemapPair.alike_one hr
  · exact bump_alike hr s

include he

theorem Sim.fastmid3 (b : Boxes3) (s : Int × Int) :
    Sim StepAlike' (h.fastmid (α := α) b s) ((h.set pf ex).fastmid b s) := by
  refine Sim.ite he ((Sim.newRemap3 hv hp _ _ _ _ (.inr (.inl rfl))).bind fun r r' hr => .ret ⟨?_, ?_⟩)
    ((Sim.newRemap3 hv hp _ _ _ _ (.inl rfl)).bind fun r r' hr => (Sim.newRemap3 hv hp _ _ _ _ (.inr (.inl rfl))).bind
      fun x x' hx => .ret ⟨?_, ?_⟩)
  · exact RemapPair.alike_one hr
  · exact bump_alike hr s
  · exact RemapPair.alike_two hr hx
  · show bump (bump s r) x = bump (bump s r') x'
    rw [bump_alike hr, bump_alike hx]

theorem Sim.midslow3 (b : Boxes3) (s : Int × Int) :
    Sim StepAlike' (h.midslow (α := α) b s) ((h.set pf ex).midslow b s) := by
  refine Sim.ite he ((Sim.newRemap3 hv hp _ _ _ _ (.inr (.inl rfl))).bind fun r r' hr => .ret ⟨?_, ?_⟩)
    ((Sim.newRemap3 hv hp _ _ _ _ (.inl rfl)).bind fun r r' hr => (Sim.newRemap3 hv hp _ _ _ _ (.inr (.inl rfl))).bind
      fun x x' hx => .ret ⟨?_, ?_⟩)
  · exact RemapPair.alike_one hr
  · exact bump_alike hr s
  · exact RemapPair.alike_two hr hx
  · show bump (bump s r) x = bump (bump s r') x'
    rw [bump_alike hr, bump_alike hx]

theorem Sim.slowmid3 (b : Boxes3) (s : Int × Int) :
    Sim StepAlike' (h.slowmid (α := α) b s) ((h.set pf ex).slowmid b s) := by
  refine Sim.ite he ((Sim.newRemap3 hv hp _ _ _ _ (.inr (.inr rfl))).bind fun r r' hr => .ret ⟨?_, ?_⟩)
    ((Sim.newRemap3 hv hp _ _ _ _ (.inl rfl)).bind fun r r' hr => (Sim.newRemap3 hv hp _ _ _ _ (.inr (.inr rfl))).bind
      fun x x' hx => .ret ⟨?_, ?_⟩)
  · exact RemapPair.alike_one hr
  · exact bump_alike hr s
  · exact RemapPair.alike_two hr hx
  · show bump (bump s r) x = bump (bump s r') x'
    rw [bump_alike hr, bump_alike hx]

theorem Sim.midfast3 (b : Boxes3) (s : Int × Int) :
    Sim StepAlike' (h.midfast (α := α) b s) ((h.set pf ex).midfast b s) := by
  refine Sim.ite he ((Sim.newRemap3 hv hp _ _ _ _ (.inr (.inr rfl))).bind fun r r' hr => .ret ⟨?_, ?_⟩)
    ((Sim.newRemap3 hv hp _ _ _ _ (.inl rfl)).bind fun r r' hr => (Sim.newRemap3 hv hp _ _ _ _ (.inr (.inr rfl))).bind
      fun x x' hx => .ret ⟨?_, ?_⟩)
  · exact RemapPair.alike_one hr
  · exact bump_alike hr s
  · exact RemapPair.alike_two hr hx
  · exact bump_alike hr s

/-- The remaps of a forward FFT do the same. -/
theorem Sim.forward3 (b : Boxes3) (s : Int × Int) :
    Sim (fun x y : Forward α × (Int × Int) => (PairAlike x.1.prefast y.1.prefast ∧ x.1.fastmid.Alike y.1.fastmid ∧
      x.1.midslow.Alike y.1.midslow ∧ PairAlike x.1.postslow y.1.postslow) ∧ x.2 = y.2)
      (h.forward b s) ((h.set pf ex).forward b s) := by
  unfold Here3.forward
  refine (Sim.prefast3 hv hp b s).bind fun x x' hx => ?_
  rw [hx.2]
  refine (Sim.fastmid3 hv hp he b x'.2).bind fun y y' hy => ?_
  rw [hy.2]
  refine (Sim.midslow3 hv hp he b y'.2).bind fun z z' hz => ?_
  rw [hz.2]
  exact (Sim.postslow3 hv hp b z'.2).bind fun w w' hw => .ret ⟨⟨hx.1, hy.1, hz.1, hw.1⟩, hw.2⟩

/-- The remaps of an inverse FFT do the same. -/
theorem Sim.inverse3 (b : Boxes3) (s : Int × Int) :
    Sim (fun x y : Inverse α × (Int × Int) => (PairAlike x.1.preslow y.1.preslow ∧ x.1.slowmid.Alike y.1.slowmid ∧
      x.1.midfast.Alike y.1.midfast ∧ PairAlike x.1.postfast y.1.postfast) ∧ x.2 = y.2)
      (h.inverse b s) ((h.set pf ex).inverse b s) := by
  unfold Here3.inverse
  refine (Sim.preslow3 hv hp b s).bind fun x x' hx => ?_
  rw [hx.2]
  refine (Sim.slowmid3 hv hp he b x'.2).bind fun y y' hy => ?_
  rw [hy.2]
  refine (Sim.midfast3 hv hp he b y'.2).bind fun z z' hz => ?_
  rw [hz.2]
  exact (Sim.postfast3 hv hp b z'.2).bind fun w w' hw => .ret ⟨⟨hx.1, hy.1, hz.1, hw.1⟩, hw.2⟩

theorem Sim.main3 (b : Boxes3) (d : Bool) : Sim Fft3.Alike (h.main (α := α) b d) ((h.set pf ex).main b d) := by
  unfold Here3.main
  refine (Sim.forward3 hv hp he b (0, 0)).bind fun x x' hx => ?_
  rw [hx.2]
  refine Sim.bind (R := fun y y' : Option (Inverse α) × (Int × Int) => (PairAlike (y.1.bind Inverse.preslow) (y'.1.bind Inverse.preslow) ∧
    PairAlike (y.1.map Inverse.slowmid) (y'.1.map Inverse.slowmid) ∧ PairAlike (y.1.map Inverse.midfast) (y'.1.map Inverse.midfast) ∧
    PairAlike (y.1.bind Inverse.postfast) (y'.1.bind Inverse.postfast)) ∧ y.2 = y'.2) ?_ fun y y' hy => ?_
  · exact Sim.ite Iff.rfl (.ret ⟨⟨trivial, trivial, trivial, trivial⟩, rfl⟩)
      ((Sim.inverse3 hv hp he b x'.2).bind fun i i' hi => .ret hi)
  · show Sim _ (Spmd.lift (h.plans b) >>= _) (Spmd.lift (h.plans b) >>= _)
    refine Sim.same _ fun p => .ret ?_
    have hf : h.fftSize b = (h.set pf ex).fftSize b := by
      unfold Here3.fftSize
      by_cases hz : h.st.exchange = 0
      · rw [if_neg (not_not.mpr hz), if_neg (not_not.mpr (show (h.set pf ex).st.exchange = 0 from he.mp hz))]; rfl
      · rw [if_pos hz, if_pos (show (h.set pf ex).st.exchange ≠ 0 from fun e => hz (he.mpr e))]; rfl
    exact ⟨rfl, hx.1.1, hx.1.2.1, hx.1.2.2.1, hx.1.2.2.2, hy.1.1, hy.1.2.1, hy.1.2.2.1, hy.1.2.2.2, rfl, rfl, hf,
      congrArg Prod.fst hy.2, congrArg Prod.snd hy.2, rfl, rfl, rfl, rfl, rfl⟩

/-- **`setup` makes the same calls and objects that do the same**, if only `packflag` is different, or `exchange` is
different and nonzero. -/
theorem Sim.setup3 : Sim (ExAlike Fft3.Alike) (h.setup (α := α)) (h.set pf ex).setup := by
  unfold Here3.setup
  have hfail : ∀ e, Sim (E := Box3) (ExAlike (Fft3.Alike (α := α))) (Spmd.fail e) (Spmd.fail e) := fun e => .call _ fun _ => .ret rfl
  refine Sim.ite Iff.rfl (hfail _) (Sim.ite Iff.rfl (hfail _) ?_)
  refine Sim.same _ fun bad => Sim.ite Iff.rfl (hfail _) (Sim.same _ fun nall => Sim.ite Iff.rfl (hfail _) ?_)
  refine Sim.same _ fun differ => ?_
  have hg : (h.set pf ex).grids = h.grids := by
    unfold Here3.grids
    by_cases hz : h.st.exchange = 0
    · simp only [if_neg (not_not.mpr hz), if_neg (not_not.mpr (show (h.set pf ex).st.exchange = 0 from he.mp hz))]; rfl
    · simp only [if_pos hz, if_pos (show (h.set pf ex).st.exchange ≠ 0 from fun e => hz (he.mpr e))]; rfl
  rw [hg]
  refine Sim.same _ fun g => Sim.same _ fun pre => Sim.same _ fun sf => Sim.same _ fun post => ?_
  exact (Sim.main3 hv hp he _ _).bind fun f f' hf => .ret hf

end

/-! ## Different zeroness of `exchange` -/

section

variable (h : Here3)

theorem Gathers.newRemap3 (inst : Nat) (c : Bool) (inb outb : Box3) (permute : Int) :
    Gathers 2 (h.newRemap (α := α) inst c inb outb permute) := (Gathers.remap _ _ _ _ _ _ _ _ _).bind (m := 0) fun _ => .ret _

theorem Gathers.one3 (inst : Nat) (c : Bool) (inb outb : Box3) (permute : Int) {ρ : Type} (f : Remap3 α → ρ) :
    Gathers 2 (h.newRemap (α := α) inst c inb outb permute >>= fun r => Pure.pure (f r)) :=
  (Gathers.newRemap3 h _ _ _ _ _).bind (m := 0) fun _ => .ret _

theorem Gathers.forward3 (b : Boxes3) (s : Int × Int) : Gathers ((if b.pre = true then 2 else 0) +
    ((if h.st.exchange = 0 then 2 else 4) + ((if h.st.exchange = 0 then 2 else 4) + ((if b.post = true then 2 else 0) + 0))))
    (h.forward (α := α) b s) := by
  unfold Here3.forward
  refine Gathers.bind ?_ fun x => Gathers.bind ?_ fun y => Gathers.bind ?_ fun z => Gathers.bind ?_ fun w => .ret _
  · exact (Gathers.one3 h _ _ _ _ _ _).ite (.ret _)
  · exact (Gathers.one3 h _ _ _ _ _ _).ite ((Gathers.newRemap3 h _ _ _ _ _).bind (m := 2) fun _ => Gathers.one3 h _ _ _ _ _ _)
  · exact (Gathers.one3 h _ _ _ _ _ _).ite ((Gathers.newRemap3 h _ _ _ _ _).bind (m := 2) fun _ => Gathers.one3 h _ _ _ _ _ _)
  · exact ((Gathers.lift _).bind (n := 0) (m := 2) fun _ => Gathers.one3 h _ _ _ _ _ _).ite (.ret _)

theorem Gathers.inverse3 (b : Boxes3) (s : Int × Int) : Gathers ((if b.post = true then 2 else 0) +
    ((if h.st.exchange = 0 then 2 else 4) + ((if h.st.exchange = 0 then 2 else 4) + ((if b.pre = true then 2 else 0) + 0))))
    (h.inverse (α := α) b s) := by
  unfold Here3.inverse
  refine Gathers.bind ?_ fun x => Gathers.bind ?_ fun y => Gathers.bind ?_ fun z => Gathers.bind ?_ fun w => .ret _
  · refine Gathers.ite ((Gathers.bind (n := 2) (m := 0) ?_ fun _ => .ret _)) (.ret _)
    unfold Here3.newPreslow
    split
    · exact Gathers.newRemap3 h _ _ _ _ _
    · split
      · exact Gathers.newRemap3 h _ _ _ _ _
      · split
        · exact Gathers.newRemap3 h _ _ _ _ _
        · exact .ub _
  · exact (Gathers.one3 h _ _ _ _ _ _).ite ((Gathers.newRemap3 h _ _ _ _ _).bind (m := 2) fun _ => Gathers.one3 h _ _ _ _ _ _)
  · exact (Gathers.one3 h _ _ _ _ _ _).ite ((Gathers.newRemap3 h _ _ _ _ _).bind (m := 2) fun _ => Gathers.one3 h _ _ _ _ _ _)
  · exact (Gathers.one3 h _ _ _ _ _ _).ite (.ret _)

theorem Gathers.main3 (b : Boxes3) (d : Bool) : Gathers ((((if b.pre = true then 2 else 0) + if b.post = true then 2 else 0) +
    2 * if h.st.exchange = 0 then 2 else 4) * if d = true then 2 else 1) (h.main (α := α) b d) := by
  have G : Gathers ((((if b.pre = true then 2 else 0) +
    ((if h.st.exchange = 0 then 2 else 4) + ((if h.st.exchange = 0 then 2 else 4) + ((if b.post = true then 2 else 0) + 0))))) +
      ((if d = false then 0 else (if b.post = true then 2 else 0) + ((if h.st.exchange = 0 then 2 else 4) +
        ((if h.st.exchange = 0 then 2 else 4) + ((if b.pre = true then 2 else 0) + 0)))) + 0)) (h.main (α := α) b d) := by
    unfold Here3.main
    refine Gathers.bind (Gathers.forward3 h b _) fun x => Gathers.bind ?_ fun y => (Gathers.lift _).bind (m := 0) fun p => .ret _
    exact Gathers.ite (.ret _) ((Gathers.inverse3 h b _).bind (m := 0) fun _ => .ret _)
  convert G using 1
  cases d <;> simp <;> split_ifs <;> rfl

end

section

theorem allMax_same {P : Nat} {f g : Nat → Bool} (h : ∀ r < P, f r = g r) : allMax P f = allMax P g := by
  unfold allMax
  rw [Bool.eq_iff_iff]
  simp only [List.any_eq_true, List.mem_range]
  exact ⟨fun ⟨r, hr, e⟩ => ⟨r, hr, (h r hr).symm.trans e⟩, fun ⟨r, hr, e⟩ => ⟨r, hr, (h r hr).trans e⟩⟩

variable (a : Args3) (st : Nat → Settings) (P : Nat)

/-- `setup` up to the remaps, with settings of their own on the ranks. -/
theorem Comes.ranks3 {G : Nat → Grids} (hP : 0 < P) (hc : setupCheck P a = none)
    (hg : ∀ r < P, setupGrids P a (st r).exchange = some (G r)) (h0 : ∀ r < P, (G r).slow = (G 0).slow) :
    Comes P (fun r => (a.here (st r) P r).setup (α := α))
      (fun r => (a.here (st r) P r).main ⟨fastBox P a (G r) r, midBox a (G r) r, slowBox P a (G r) r, brickBox a (G r) r,
        preflag P a, postflag P a (G 0)⟩ (!inoutSame P a) >>= fun f => Pure.pure (.ok f)) := by
  unfold setupCheck at hc
  by_cases h1 : a.nfast < 2 ∨ a.nmid < 2 ∨ a.nslow < 2
  · rw [if_pos h1] at hc; exact absurd hc (by simp)
  by_cases h2 : (!primeFactorable a.nfast || !primeFactorable a.nmid || !primeFactorable a.nslow) = true
  · rw [if_neg h1, if_pos h2] at hc; exact absurd hc (by simp)
  refine Comes.start ?_ fun r _ => (if_neg h1).trans (if_neg h2)
  refine ((Lock.anyFlag hP fun r => badIndices a.nfast a.nmid a.nslow (a.ins r)).thenC _).trans ?_
  by_cases h3 : allMax P (fun r => badIndices a.nfast a.nmid a.nslow (a.ins r)) = true
  · rw [if_neg h1, if_neg h2, if_pos h3] at hc; exact absurd hc (by simp)
  refine Comes.start ?_ fun r _ => if_neg h3
  refine ((Lock.total fun r => boxSize (a.ins r)).thenC _).trans ?_
  by_cases h4 : allSum P (fun r => boxSize (a.ins r)) ≠ a.nfast * a.nmid * a.nslow
  · rw [if_neg h1, if_neg h2, if_neg h3, if_pos h4] at hc; exact absurd hc (by simp)
  refine Comes.start ?_ fun r _ => if_neg h4
  refine ((Lock.anyFlag hP fun r => (a.here (st r) P r).differs).thenC _).trans ?_
  refine ((Does.lift _ G fun r hr => hg r hr).thenC _).trans ?_
  refine ((Lock.anyFlag hP fun r => (a.here (st r) P r).notFast).thenC _).trans ?_
  refine ((Lock.anyFlag hP fun r => (a.here (st r) P r).notSlow).thenC _).trans ?_
  refine ((Lock.anyFlag hP fun r => (a.here (st r) P r).notOut ((a.here (st r) P r).slowBox (G r)
    (allMax P fun r => (a.here (st r) P r).notSlow))).thenC _).trans (.refl fun r hr => ?_)
  have e : (!inoutSame P a) = allMax P fun r => (a.here (st r) P r).differs := by
    unfold inoutSame
    rw [Bool.not_not]
    rfl
  have e' : postflag P a (G 0) = allMax P fun r => (a.here (st r) P r).notOut ((a.here (st r) P r).slowBox (G r)
    (allMax P fun r => (a.here (st r) P r).notSlow)) := by
    unfold postflag
    refine allMax_same fun q hq => ?_
    have : slowBox P a (G 0) q = (a.here (st q) P q).slowBox (G q) (allMax P fun r => (a.here (st r) P r).notSlow) := by
      unfold slowBox
      rw [← h0 q hq]
      rfl
    rw [this]
    rfl
  rw [e, e']
  rfl

theorem setupGrids_slow {ex : Int} {g : Grids} (h : setupGrids P a ex = some g) :
    procGrid a.fp P a.nfast.toNat a.nmid.toNat 1 = some g.slow := by
  unfold setupGrids at h
  obtain ⟨f, -, h⟩ := Option.bind_eq_some_iff.mp h
  obtain ⟨m, -, h⟩ := Option.bind_eq_some_iff.mp h
  obtain ⟨s, hs, h⟩ := Option.bind_eq_some_iff.mp h
  dsimp only at h
  split at h
  · obtain ⟨b, -, h⟩ := Option.bind_eq_some_iff.mp h
    obtain rfl := Option.some.inj h
    exact hs
  · obtain rfl := Option.some.inj h
    exact hs

/-- With pencils on one rank and bricks on another the numbers of remaps are different. -/
theorem hangs_exchange3 {G : Nat → Grids} (hc : setupCheck P a = none)
    (hg : ∀ r < P, setupGrids P a (st r).exchange = some (G r)) {i j : Nat} (hi : i < P) (hj : j < P)
    (h1 : (st i).exchange = 0) (h2 : (st j).exchange ≠ 0) : Hangs P (fun r => (a.here (st r) P r).setup (α := α)) := by
  have hP : 0 < P := Nat.lt_of_le_of_lt (Nat.zero_le i) hi
  have h0 : ∀ r < P, (G r).slow = (G 0).slow := fun r hr =>
    Option.some.inj ((setupGrids_slow a P (hg r hr)).symm.trans (setupGrids_slow a P (hg 0 hP)))
  rcases lock_or_fails hP (fun r => (a.here (st r) P r).setup (α := α)) with ⟨x, hx⟩ | hf
  · exfalso
    have L := Lock.after (Comes.ranks3 a st P hP hc hg h0) hx
    have := L.gathers (fun r _ => (Gathers.main3 (a.here (st r) P r) ⟨fastBox P a (G r) r, midBox a (G r) r,
      slowBox P a (G r) r, brickBox a (G r) r, preflag P a, postflag P a (G 0)⟩ (!inoutSame P a)).bind (m := 0)
        fun _ => .ret _) hi hj
    rw [if_pos (show (a.here (st i) P i).st.exchange = 0 from h1),
      if_neg (show ¬(a.here (st j) P j).st.exchange = 0 from h2)] at this
    revert this
    cases preflag P a <;> cases postflag P a (G 0) <;> cases inoutSame P a <;> simp
  · exact hf.hangs

variable {a st P}

/-- **Settings of their own on the ranks.** -/
theorem setup3_ranks {g : Grids} (hP : 0 < P) (hc : setupCheck P a = none) (hst : ∀ r < P, (st r).Valid)
    (he : ∀ r < P, ((st r).exchange = 0 ↔ (st 0).exchange = 0)) (hg : setupGrids P a (st 0).exchange = some g)
    {x : Nat → Except SetupErr (Fft3 α)} (hx : ∀ r < P, fft3Setup P r a (st 0) = some (x r)) :
    (a.Agree (st 0) P g (fun r => (st r).collective) → ∃ y, Lock P (fun r => (a.here (st r) P r).setup) y ∧
      ∀ r < P, ExAlike Fft3.Alike (y r) (x r)) ∧
    (¬a.Agree (st 0) P g (fun r => (st r).collective) → Hangs P (fun r => (a.here (st r) P r).setup (α := α))) := by
  obtain ⟨h1, h2⟩ := setup3_own (α := α) (col := fun r => (st r).collective) hP hc hg hx
  have hs : ∀ r < P, Sim (ExAlike Fft3.Alike) ((a.here (st r) P r).setup (α := α))
      (a.own (st 0) P (fun r => (st r).collective) r).setup := fun r hr =>
    Sim.setup3 (h := a.here (st r) P r) (hst r hr) (hst 0 hP) (he r hr)
  constructor
  · intro hA
    obtain ⟨y, L, hy⟩ := (h1 hA).sim hP hs
    exact ⟨y, L, hy⟩
  · intro hA
    exact (h2 hA).hangs.sim hP hs

end

end FftMpi
