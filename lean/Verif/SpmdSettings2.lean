import Verif.Fft2dPlan
import Verif.SpmdSettings3

/-!
# FFT2d with different settings on the ranks
-/

noncomputable section

namespace FftMpi

variable {α : Type}

/-- The two remaps do the same. -/
structure Remap2.Alike (r r' : Remap2 α) : Prop where
  send : r.obj.sendsize = r'.obj.sendsize
  recv : r.obj.recvsize = r'.obj.recvsize
  prog : ∀ ai ao, r.prog ai ao = r'.prog ai ao

def RemapPair2.Alike (p p' : RemapPair2 α) : Prop := ∀ ai ao, p.prog ai ao = p'.prog ai ao

def PairAlike2 : Option (RemapPair2 α) → Option (RemapPair2 α) → Prop
  | none, none => True
  | some p, some p' => p.Alike p'
  | _, _ => False

theorem RemapPair2.alike_one {r r' : Remap2 α} (h : r.Alike r') : RemapPair2.Alike ⟨r, none⟩ ⟨r', none⟩ := by
  intro ai ao
  unfold RemapPair2.prog
  rw [h.prog]

theorem RemapPair2.alike_two {r r' x x' : Remap2 α} (h : r.Alike r') (k : x.Alike x') :
    RemapPair2.Alike ⟨r, some x⟩ ⟨r', some x'⟩ := by
  intro ai ao
  unfold RemapPair2.prog
  dsimp only
  rw [h.prog, k.prog]

theorem bump2_alike {r r' : Remap2 α} (h : r.Alike r') (s : Int × Int) : bump2 s r = bump2 s r' := by
  unfold bump2
  rw [h.send, h.recv]

/-- The two objects have the same members apart from the remaps, and those do the same. -/
structure Fft2.Alike (f f' : Fft2 α) : Prop where
  same : f.same = f'.same
  prefast : PairAlike2 f.prefast f'.prefast
  fastslow : PairAlike2 f.fastslow f'.fastslow
  postslow : PairAlike2 f.postslow f'.postslow
  preslow : PairAlike2 f.preslow f'.preslow
  slowfast : PairAlike2 f.slowfast f'.slowfast
  postfast : PairAlike2 f.postfast f'.postfast
  insize : f.insize = f'.insize
  outsize : f.outsize = f'.outsize
  fftsize : f.fftsize = f'.fftsize
  sendsize : f.sendsize = f'.sendsize
  recvsize : f.recvsize = f'.recvsize
  fftFast : f.fftFast = f'.fftFast
  fftSlow : f.fftSlow = f'.fftSlow
  norm : f.norm = f'.norm
  normnum : f.normnum = f'.normnum

theorem PairAlike2.remapIf2 {p p' : Option (RemapPair2 α)} (h : PairAlike2 p p') (ai ao : Nat) :
    remapIf2 p ai ao = remapIf2 p' ai ao := by
  cases p <;> cases p'
  · rfl
  · exact absurd h id
  · exact absurd h id
  · exact h ai ao

theorem PairAlike2.remapOrCopy2 {p p' : Option (RemapPair2 ℝ)} (h : PairAlike2 p p') (n : Int) (ai ao : Nat) :
    remapOrCopy2 p n ai ao = remapOrCopy2 p' n ai ao := by
  cases p <;> cases p'
  · rfl
  · exact absurd h id
  · exact absurd h id
  · exact h ai ao

/-- All methods that work with data do the same. -/
theorem Fft2.Alike.progs {f f' : Fft2 ℝ} (h : f.Alike f') :
    (∀ J scaled remaponly flag ai ao, f.compute J scaled remaponly flag ai ao = f'.compute J scaled remaponly flag ai ao) ∧
    (∀ J flag ai, f.only1d J flag ai = f'.only1d J flag ai) ∧
    (∀ flag ai ao, f.onlyRemaps flag ai ao = f'.onlyRemaps flag ai ao) ∧
    ∀ flag which ai ao, f.onlyOneRemap flag which ai ao = f'.onlyOneRemap flag which ai ao := by
  refine ⟨fun J scaled remaponly flag ai ao => ?_, fun J flag ai => ?_, fun flag ai ao => ?_, fun flag which ai ao => ?_⟩
  · unfold Fft2.compute
    rw [h.same, h.insize, h.outsize, h.fftFast, h.fftSlow, h.norm, h.normnum]
    simp only [h.prefast.remapOrCopy2, h.fastslow.remapIf2, h.postslow.remapIf2, h.preslow.remapOrCopy2,
      h.slowfast.remapIf2, h.postfast.remapIf2]
  · unfold Fft2.only1d
    rw [h.fftFast, h.fftSlow]
  · unfold Fft2.onlyRemaps
    rw [h.same, h.insize, h.outsize]
    simp only [h.prefast.remapOrCopy2, h.fastslow.remapIf2, h.postslow.remapIf2, h.preslow.remapOrCopy2,
      h.slowfast.remapIf2, h.postfast.remapIf2]
  · unfold Fft2.onlyOneRemap
    rw [h.same, h.insize, h.outsize]
    simp only [h.prefast.remapOrCopy2, h.fastslow.remapIf2, h.postslow.remapIf2, h.preslow.remapOrCopy2,
      h.slowfast.remapIf2, h.postfast.remapIf2]

/-! ## `setup` with other values of `packflag` and `exchange` -/

/-- The same arguments with other settings. -/
def Here2.set (h : Here2) (pf ex : Int) : Here2 := { h with st := { h.st with packflag := pf, exchange := ex } }

section

variable {h : Here2} {pf ex : Int}

/-- A pair of remaps and the sizes so far. -/
def StepAlike2 (x y : Option (RemapPair2 α) × (Int × Int)) : Prop := PairAlike2 x.1 y.1 ∧ x.2 = y.2

def StepAlike2' (x y : RemapPair2 α × (Int × Int)) : Prop := x.1.Alike y.1 ∧ x.2 = y.2

theorem Sim.newRemap2 (hv : FlagOk2 h.w h.st.packflag) (hp : FlagOk2 h.w pf)
    (inst : Nat) (c : Bool) (ib ob : Box2) {permute : Int} (hm : permute = 0 ∨ permute = 1) :
    Sim Remap2.Alike (h.newRemap (α := α) inst c ib ob permute) ((h.set pf ex).newRemap inst c ib ob permute) := by
  unfold Here2.newRemap
  refine Sim.bind (Sim.remap (sameCopy2 hv hp hm) _ _ _ _ _) fun o o' hA => .ret ⟨hA.send, hA.recv, fun ai ao => ?_⟩
  have := hA.prog o.coll c inst ai ao
  unfold Remap2.prog
  dsimp only
  rw [show ({ o with coll := o.coll } : RemapObj α PackPlan2) = o from rfl] at this
  rw [this, hA.coll]

variable (hv : FlagOk2 h.w h.st.packflag) (hp : FlagOk2 h.w pf)
  (he : h.st.exchange = 0 ↔ ex = 0)

include hv hp

theorem Sim.prefast2 (b : Boxes2) (s : Int × Int) :
    Sim StepAlike2 (h.prefast (α := α) b s) ((h.set pf ex).prefast b s) := by
  refine Sim.ite Iff.rfl ((Sim.newRemap2 hv hp _ _ _ _ (.inl rfl)).bind fun r r' hr => .ret ⟨?_, ?_⟩) (.ret ⟨trivial, rfl⟩)
  · exact RemapPair2.alike_one hr
  · exact bump2_alike hr s

theorem Sim.postfast2 (b : Boxes2) (s : Int × Int) :
    Sim StepAlike2 (h.postfast (α := α) b s) ((h.set pf ex).postfast b s) := by
  refine Sim.ite Iff.rfl ((Sim.newRemap2 hv hp _ _ _ _ (.inl rfl)).bind fun r r' hr => .ret ⟨?_, ?_⟩) (.ret ⟨trivial, rfl⟩)
  · exact RemapPair2.alike_one hr
  · exact bump2_alike hr s

theorem Sim.postslow2 (b : Boxes2) (s : Int × Int) :
    Sim StepAlike2 (h.postslow (α := α) b s) ((h.set pf ex).postslow b s) := by
  refine Sim.ite Iff.rfl ?_ (.ret ⟨trivial, rfl⟩)
  show Sim _ (Spmd.lift (newpermute2 h.permute) >>= _) (Spmd.lift (newpermute2 h.permute) >>= _)
  cases e : newpermute2 h.permute with
  | none => exact .ub
  | some np =>
    have hm : np = 0 ∨ np = 1 := by
      unfold newpermute2 at e
      split at e
      · exact .inr (Option.some.inj e).symm
      · split at e
        · exact .inl (Option.some.inj e).symm
        · exact absurd e (by simp)
    refine (Sim.newRemap2 hv hp _ _ _ _ hm).bind fun r r' hr => .ret ⟨?_, ?_⟩
    · exact RemapPair2.alike_one hr
    · exact bump2_alike hr s

theorem Sim.preslow2 (b : Boxes2) (s : Int × Int) :
    Sim StepAlike2 (h.preslow (α := α) b s) ((h.set pf ex).preslow b s) := by
  refine Sim.ite Iff.rfl (Sim.bind (R := Remap2.Alike) ?_ fun r r' hr => .ret ⟨?_, ?_⟩) (.ret ⟨trivial, rfl⟩)
  · exact Sim.ite Iff.rfl (Sim.newRemap2 hv hp _ _ _ _ (.inr rfl)) (Sim.ite Iff.rfl
      (Sim.newRemap2 hv hp _ _ _ _ (.inl rfl)) .ub)
  · exact RemapPair2.alike_one hr
  · exact bump2_alike hr s

include he

theorem Sim.fastslow2 (b : Boxes2) (s : Int × Int) :
    Sim StepAlike2' (h.fastslow (α := α) b s) ((h.set pf ex).fastslow b s) := by
  refine Sim.ite he ((Sim.newRemap2 hv hp _ _ _ _ (.inr rfl)).bind fun r r' hr => .ret ⟨?_, ?_⟩)
    ((Sim.newRemap2 hv hp _ _ _ _ (.inl rfl)).bind fun r r' hr => (Sim.newRemap2 hv hp _ _ _ _ (.inr rfl)).bind
      fun x x' hx => .ret ⟨?_, ?_⟩)
  · exact RemapPair2.alike_one hr
  · exact bump2_alike hr s
  · exact RemapPair2.alike_two hr hx
  · show bump2 (bump2 s r) x = bump2 (bump2 s r') x'
    rw [bump2_alike hr, bump2_alike hx]

theorem Sim.slowfast2 (b : Boxes2) (s : Int × Int) :
    Sim StepAlike2' (h.slowfast (α := α) b s) ((h.set pf ex).slowfast b s) := by
  refine Sim.ite he ((Sim.newRemap2 hv hp _ _ _ _ (.inr rfl)).bind fun r r' hr => .ret ⟨?_, ?_⟩)
    ((Sim.newRemap2 hv hp _ _ _ _ (.inl rfl)).bind fun r r' hr => (Sim.newRemap2 hv hp _ _ _ _ (.inr rfl)).bind
      fun x x' hx => .ret ⟨?_, ?_⟩)
  · exact RemapPair2.alike_one hr
  · exact bump2_alike hr s
  · exact RemapPair2.alike_two hr hx
  · show bump2 (bump2 s r) x = bump2 (bump2 s r') x'
    rw [bump2_alike hr, bump2_alike hx]

/-- The remaps of a forward FFT do the same. -/
theorem Sim.forward2 (b : Boxes2) (s : Int × Int) :
    Sim (fun x y : Forward2 α × (Int × Int) => (PairAlike2 x.1.prefast y.1.prefast ∧ x.1.fastslow.Alike y.1.fastslow ∧
      PairAlike2 x.1.postslow y.1.postslow) ∧ x.2 = y.2)
      (h.forward b s) ((h.set pf ex).forward b s) := by
  unfold Here2.forward
  refine (Sim.prefast2 hv hp b s).bind fun x x' hx => ?_
  rw [hx.2]
  refine (Sim.fastslow2 hv hp he b x'.2).bind fun y y' hy => ?_
  rw [hy.2]
  exact (Sim.postslow2 hv hp b y'.2).bind fun w w' hw => .ret ⟨⟨hx.1, hy.1, hw.1⟩, hw.2⟩

/-- The remaps of an inverse FFT do the same. -/
theorem Sim.inverse2 (b : Boxes2) (s : Int × Int) :
    Sim (fun x y : Inverse2 α × (Int × Int) => (PairAlike2 x.1.preslow y.1.preslow ∧ x.1.slowfast.Alike y.1.slowfast ∧
      PairAlike2 x.1.postfast y.1.postfast) ∧ x.2 = y.2)
      (h.inverse b s) ((h.set pf ex).inverse b s) := by
  unfold Here2.inverse
  refine (Sim.preslow2 hv hp b s).bind fun x x' hx => ?_
  rw [hx.2]
  refine (Sim.slowfast2 hv hp he b x'.2).bind fun y y' hy => ?_
  rw [hy.2]
  exact (Sim.postfast2 hv hp b y'.2).bind fun w w' hw => .ret ⟨⟨hx.1, hy.1, hw.1⟩, hw.2⟩

theorem Sim.main2 (b : Boxes2) (d : Bool) : Sim Fft2.Alike (h.main (α := α) b d) ((h.set pf ex).main b d) := by
  unfold Here2.main
  refine (Sim.forward2 hv hp he b (0, 0)).bind fun x x' hx => ?_
  rw [hx.2]
  refine Sim.bind (R := fun y y' : Option (Inverse2 α) × (Int × Int) => (PairAlike2 (y.1.bind Inverse2.preslow) (y'.1.bind Inverse2.preslow) ∧
    PairAlike2 (y.1.map Inverse2.slowfast) (y'.1.map Inverse2.slowfast) ∧
    PairAlike2 (y.1.bind Inverse2.postfast) (y'.1.bind Inverse2.postfast)) ∧ y.2 = y'.2) ?_ fun y y' hy => ?_
  · exact Sim.ite Iff.rfl (.ret ⟨⟨trivial, trivial, trivial⟩, rfl⟩)
      ((Sim.inverse2 hv hp he b x'.2).bind fun i i' hi => .ret hi)
  · show Sim _ (Spmd.lift (h.plans b) >>= _) (Spmd.lift (h.plans b) >>= _)
    refine Sim.same _ fun p => .ret ?_
    have hf : h.fftSize b = (h.set pf ex).fftSize b := by
      unfold Here2.fftSize
      by_cases hz : h.st.exchange = 0
      · rw [if_neg (not_not.mpr hz), if_neg (not_not.mpr (show (h.set pf ex).st.exchange = 0 from he.mp hz))]; rfl
      · rw [if_pos hz, if_pos (show (h.set pf ex).st.exchange ≠ 0 from fun e => hz (he.mpr e))]; rfl
    exact ⟨rfl, hx.1.1, hx.1.2.1, hx.1.2.2, hy.1.1, hy.1.2.1, hy.1.2.2, rfl, rfl, hf,
      congrArg Prod.fst hy.2, congrArg Prod.snd hy.2, rfl, rfl, rfl, rfl⟩

/-- **`setup` makes the same calls and objects that do the same**, if only `packflag` is different, or `exchange` is
different and nonzero. -/
theorem Sim.setup2 : Sim (ExAlike Fft2.Alike) (h.setup (α := α)) (h.set pf ex).setup := by
  unfold Here2.setup
  have hfail : ∀ e, Sim (E := Box2) (ExAlike (Fft2.Alike (α := α))) (Spmd.fail e) (Spmd.fail e) := fun e => .call _ fun _ => .ret rfl
  refine Sim.ite Iff.rfl (hfail _) (Sim.ite Iff.rfl (hfail _) ?_)
  refine Sim.same _ fun bad => Sim.ite Iff.rfl (hfail _) (Sim.same _ fun nall => Sim.ite Iff.rfl (hfail _) ?_)
  refine Sim.same _ fun differ => ?_
  have hg : (h.set pf ex).grid = h.grid := by
    unfold Here2.grid
    by_cases hz : h.st.exchange = 0
    · simp only [if_neg (not_not.mpr hz), if_neg (not_not.mpr (show (h.set pf ex).st.exchange = 0 from he.mp hz))]
    · simp only [if_pos hz, if_pos (show (h.set pf ex).st.exchange ≠ 0 from fun e => hz (he.mpr e))]; rfl
  rw [hg]
  refine Sim.same _ fun g => Sim.same _ fun pre => Sim.same _ fun sf => Sim.same _ fun post => ?_
  exact (Sim.main2 hv hp he _ _).bind fun f f' hf => .ret hf

end

/-! ## Different zeroness of `exchange` -/

section

variable (h : Here2)

theorem Gathers.newRemap2 (inst : Nat) (c : Bool) (inb outb : Box2) (permute : Int) :
    Gathers 2 (h.newRemap (α := α) inst c inb outb permute) := (Gathers.remap _ _ _ _ _ _ _ _ _).bind (m := 0) fun _ => .ret _

theorem Gathers.one2 (inst : Nat) (c : Bool) (inb outb : Box2) (permute : Int) {ρ : Type} (f : Remap2 α → ρ) :
    Gathers 2 (h.newRemap (α := α) inst c inb outb permute >>= fun r => Pure.pure (f r)) :=
  (Gathers.newRemap2 h _ _ _ _ _).bind (m := 0) fun _ => .ret _

theorem Gathers.forward2 (b : Boxes2) (s : Int × Int) : Gathers ((if b.pre = true then 2 else 0) +
    ((if h.st.exchange = 0 then 2 else 4) + ((if b.post = true then 2 else 0) + 0)))
    (h.forward (α := α) b s) := by
  unfold Here2.forward
  refine Gathers.bind ?_ fun x => Gathers.bind ?_ fun y => Gathers.bind ?_ fun w => .ret _
  · exact (Gathers.one2 h _ _ _ _ _ _).ite (.ret _)
  · exact (Gathers.one2 h _ _ _ _ _ _).ite ((Gathers.newRemap2 h _ _ _ _ _).bind (m := 2) fun _ => Gathers.one2 h _ _ _ _ _ _)
  · exact ((Gathers.lift _).bind (n := 0) (m := 2) fun _ => Gathers.one2 h _ _ _ _ _ _).ite (.ret _)

theorem Gathers.inverse2 (b : Boxes2) (s : Int × Int) : Gathers ((if b.post = true then 2 else 0) +
    ((if h.st.exchange = 0 then 2 else 4) + ((if b.pre = true then 2 else 0) + 0)))
    (h.inverse (α := α) b s) := by
  unfold Here2.inverse
  refine Gathers.bind ?_ fun x => Gathers.bind ?_ fun y => Gathers.bind ?_ fun w => .ret _
  · refine Gathers.ite ((Gathers.bind (n := 2) (m := 0) ?_ fun _ => .ret _)) (.ret _)
    unfold Here2.newPreslow
    split
    · exact Gathers.newRemap2 h _ _ _ _ _
    · split
      · exact Gathers.newRemap2 h _ _ _ _ _
      · exact .ub _
  · exact (Gathers.one2 h _ _ _ _ _ _).ite ((Gathers.newRemap2 h _ _ _ _ _).bind (m := 2) fun _ => Gathers.one2 h _ _ _ _ _ _)
  · exact (Gathers.one2 h _ _ _ _ _ _).ite (.ret _)

theorem Gathers.main2 (b : Boxes2) (d : Bool) : Gathers ((((if b.pre = true then 2 else 0) + if b.post = true then 2 else 0) +
    if h.st.exchange = 0 then 2 else 4) * if d = true then 2 else 1) (h.main (α := α) b d) := by
  have G : Gathers ((((if b.pre = true then 2 else 0) +
    ((if h.st.exchange = 0 then 2 else 4) + ((if b.post = true then 2 else 0) + 0)))) +
      ((if d = false then 0 else (if b.post = true then 2 else 0) + ((if h.st.exchange = 0 then 2 else 4) +
        ((if b.pre = true then 2 else 0) + 0))) + 0)) (h.main (α := α) b d) := by
    unfold Here2.main
    refine Gathers.bind (Gathers.forward2 h b _) fun x => Gathers.bind ?_ fun y => (Gathers.lift _).bind (m := 0) fun p => .ret _
    exact Gathers.ite (.ret _) ((Gathers.inverse2 h b _).bind (m := 0) fun _ => .ret _)
  convert G using 1
  cases d <;> simp <;> split_ifs <;> rfl

end

section

variable (a : Args2) (w : Int) (st : Nat → Settings) (P : Nat)

/-- `setup` up to the remaps, with settings of their own on the ranks. -/
theorem Comes.ranks2 {G : Nat → Nat × Nat} (hP : 0 < P) (hc : setupCheck2 P a = none)
    (hg : ∀ r < P, setupBrick2 P a (st r).exchange = some (G r)) :
    Comes P (fun r => (a.here w (st r) P r).setup (α := α))
      (fun r => (a.here w (st r) P r).main ⟨fastBox2 P a r, slowBox2 P a r, brickBox2 a (G r) r,
        preflag2 P a, postflag2 P a⟩ (!inoutSame2 P a) >>= fun f => Pure.pure (.ok f)) := by
  unfold setupCheck2 at hc
  by_cases h1 : a.nfast < 2 ∨ a.nslow < 2
  · rw [if_pos h1] at hc; exact absurd hc (by simp)
  by_cases h2 : (!primeFactorable a.nfast || !primeFactorable a.nslow) = true
  · rw [if_neg h1, if_pos h2] at hc; exact absurd hc (by simp)
  refine Comes.start ?_ fun r _ => (if_neg h1).trans (if_neg h2)
  refine ((Lock.anyFlag hP fun r => badIndices2 a.nfast a.nslow (a.ins r)).thenC _).trans ?_
  by_cases h3 : allMax P (fun r => badIndices2 a.nfast a.nslow (a.ins r)) = true
  · rw [if_neg h1, if_neg h2, if_pos h3] at hc; exact absurd hc (by simp)
  refine Comes.start ?_ fun r _ => if_neg h3
  refine ((Lock.total fun r => boxSize2 (a.ins r)).thenC _).trans ?_
  by_cases h4 : allSum P (fun r => boxSize2 (a.ins r)) ≠ a.nfast * a.nslow
  · rw [if_neg h1, if_neg h2, if_neg h3, if_pos h4] at hc; exact absurd hc (by simp)
  refine Comes.start ?_ fun r _ => if_neg h4
  refine ((Lock.anyFlag hP fun r => (a.here w (st r) P r).differs).thenC _).trans ?_
  refine ((Does.lift _ G fun r hr => hg r hr).thenC _).trans ?_
  refine ((Lock.anyFlag hP fun r => (a.here w (st r) P r).notFast).thenC _).trans ?_
  refine ((Lock.anyFlag hP fun r => (a.here w (st r) P r).notSlow).thenC _).trans ?_
  refine ((Lock.anyFlag hP fun r => (a.here w (st r) P r).notOut ((a.here w (st r) P r).slowBox
    (allMax P fun r => (a.here w (st r) P r).notSlow))).thenC _).trans (.refl fun r hr => ?_)
  have e : (!inoutSame2 P a) = allMax P fun r => (a.here w (st r) P r).differs := by
    unfold inoutSame2
    rw [Bool.not_not]
    rfl
  rw [e]
  rfl

/-- With pencils on one rank and bricks on another the numbers of remaps are different. -/
theorem hangs_exchange2 {G : Nat → Nat × Nat} (hc : setupCheck2 P a = none)
    (hg : ∀ r < P, setupBrick2 P a (st r).exchange = some (G r)) {i j : Nat} (hi : i < P) (hj : j < P)
    (h1 : (st i).exchange = 0) (h2 : (st j).exchange ≠ 0) : Hangs P (fun r => (a.here w (st r) P r).setup (α := α)) := by
  have hP : 0 < P := Nat.lt_of_le_of_lt (Nat.zero_le i) hi
  rcases lock_or_fails hP (fun r => (a.here w (st r) P r).setup (α := α)) with ⟨x, hx⟩ | hf
  · exfalso
    have L := Lock.after (Comes.ranks2 a w st P hP hc hg) hx
    have := L.gathers (fun r _ => (Gathers.main2 (a.here w (st r) P r) ⟨fastBox2 P a r,
      slowBox2 P a r, brickBox2 a (G r) r, preflag2 P a, postflag2 P a⟩ (!inoutSame2 P a)).bind (m := 0)
        fun _ => .ret _) hi hj
    rw [if_pos (show (a.here w (st i) P i).st.exchange = 0 from h1),
      if_neg (show ¬(a.here w (st j) P j).st.exchange = 0 from h2)] at this
    revert this
    cases preflag2 P a <;> cases postflag2 P a <;> cases inoutSame2 P a <;> simp
  · exact hf.hangs

variable {a w st P}

/-- **Settings of their own on the ranks.** -/
theorem setup2_ranks {g : Nat × Nat} (hP : 0 < P) (hc : setupCheck2 P a = none) (hst : ∀ r < P, (st r).Valid2 w)
    (he : ∀ r < P, ((st r).exchange = 0 ↔ (st 0).exchange = 0)) (hg : setupBrick2 P a (st 0).exchange = some g)
    {x : Nat → Except SetupErr (Fft2 α)} (hx : ∀ r < P, fft2Setup w P r a (st 0) = some (x r)) :
    (a.Agree (st 0) P (fun r => (st r).collective) → ∃ y, Lock P (fun r => (a.here w (st r) P r).setup) y ∧
      ∀ r < P, ExAlike Fft2.Alike (y r) (x r)) ∧
    (¬a.Agree (st 0) P (fun r => (st r).collective) → Hangs P (fun r => (a.here w (st r) P r).setup (α := α))) := by
  obtain ⟨h1, h2⟩ := setup2_own (α := α) (col := fun r => (st r).collective) hP hc hg hx
  have hs : ∀ r < P, Sim (ExAlike Fft2.Alike) ((a.here w (st r) P r).setup (α := α))
      (a.own w (st 0) P (fun r => (st r).collective) r).setup := fun r hr =>
    Sim.setup2 (h := a.here w (st r) P r) (hst r hr) (hst 0 hP) (he r hr)
  constructor
  · intro hA
    obtain ⟨y, L, hy⟩ := (h1 hA).sim hP hs
    exact ⟨y, L, hy⟩
  · intro hA
    exact (h2 hA).hangs.sim hP hs

end

end FftMpi
