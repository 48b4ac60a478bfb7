import Verif.AllocFailLemmas

/-!
# Requests for memory of `Remap3d::setup`
-/

namespace FftMpi

namespace RemapLife

/-- First half of `setupLists`. -/
def sendLists (z : TypeSizes) (k : RSkel) (r : RemapLife) (h : Heap) : Option (RemapLife × Heap) := do
  let (send_offset, h) ← h.mallocIf (k.nsendAll ≠ 0) r.send_offset (k.nsendAll * z.int)
  let (send_size, h) ← h.mallocIf (k.nsendAll ≠ 0) r.send_size (k.nsendAll * z.int)
  let (send_proc, h) ← h.mallocIf (k.nsendAll ≠ 0) r.send_proc (k.nsendAll * z.int)
  let (packplan, h) ← h.mallocIf (k.nsendAll ≠ 0) r.packplan (k.nsendAll * z.plan)
  some ({ r with send_offset, send_size, send_proc, packplan }, h)

/-- Second half of `setupLists`. -/
def recvLists (z : TypeSizes) (k : RSkel) (r : RemapLife) (h : Heap) : Option (RemapLife × Heap) := do
  let (recv_offset, h) ← h.mallocIf (k.nrecvAll ≠ 0) r.recv_offset (k.nrecvAll * z.int)
  let (recv_size, h) ← h.mallocIf (k.nrecvAll ≠ 0) r.recv_size (k.nrecvAll * z.int)
  let (recv_proc, h) ← h.mallocIf (k.nrecvAll ≠ 0) r.recv_proc (k.nrecvAll * z.int)
  let (recv_bufloc, h) ← h.mallocIf (k.nrecvAll ≠ 0) r.recv_bufloc (k.nrecvAll * z.int)
  let (request, h) ← h.mallocIf (k.nrecvAll ≠ 0) r.request (k.nrecvAll * z.request)
  let (unpackplan, h) ← h.mallocIf (k.nrecvAll ≠ 0) r.unpackplan (k.nrecvAll * z.plan)
  some ({ r with recv_offset, recv_size, recv_proc, recv_bufloc, request, unpackplan }, h)

theorem setupLists_eq (z : TypeSizes) (k : RSkel) (r : RemapLife) (h : Heap) :
    r.setupLists z k h = (r.sendLists z k h).bind fun x => x.1.recvLists z k x.2 := by
  unfold setupLists sendLists recvLists
  simp only [Option.bind_eq_bind, Option.bind_assoc, Option.bind_some]

theorem given_blk (id : Nat) : (Ptr.blk id).given = true := rfl

theorem given_null : Ptr.null.given = false := rfl

theorem sendListsA_sp {z : TypeSizes} (hz : z.Pos) (k : RSkel) (r : RemapLife) :
    Sp (r.sendListsA z k) (List.replicate (if k.nsendAll ≠ 0 then 4 else 0) Care.reported) (r.sendLists z k) := by
  unfold sendListsA sendLists
  by_cases h0 : k.nsendAll = 0
  · have hn : ¬ k.nsendAll ≠ 0 := fun h => h h0
    simp only [Al.mallocIf_neg hn, Heap.mallocIf_neg hn, if_neg hn, Al.pure_bind]
    have hz0 : ∀ x : Int, (k.nsendAll : Int) * x = 0 := by
      intro x
      rw [h0]
      simp
    refine Sp.quiet (Al.demand_true (by rw [h0]; rfl) _) (Sp.quiet (Al.touch_zero _ (hz0 _))
      (Sp.quiet (Al.touch_zero _ (hz0 _)) (Sp.quiet (Al.touch_zero _ (hz0 _)) (Sp.quiet (Al.touch_zero _ (hz0 _)) ?_))))
    exact (Sp.pure _).congr fun h => rfl
  · have hb : (k.nsendAll == 0) = false := by simpa using h0
    have hp : 0 < (k.nsendAll : Int) := by omega
    have hi : 0 < (k.nsendAll : Int) * z.int := mul_pos hp hz.int
    have hl : 0 < (k.nsendAll : Int) * z.plan := mul_pos hp hz.plan
    have h0' : k.nsendAll ≠ 0 := h0
    simp only [Al.mallocIf_pos h0', Heap.mallocIf_pos h0', if_pos h0', hb, Bool.false_or]
    refine Sp.smalloc hi ?_ fun i1 => ?_
    · exact Stops.smalloc fun _ => Stops.smalloc fun _ => Stops.smalloc fun _ => Stops.left (Stops.demand (by simp [given_null]) _) _
    dsimp only
    refine Sp.smalloc hi ?_ fun i2 => ?_
    · exact Stops.smalloc fun _ => Stops.smalloc fun _ => Stops.left (Stops.demand (by simp [given_null]) _) _
    dsimp only
    refine Sp.smalloc hi ?_ fun i3 => ?_
    · exact Stops.smalloc fun _ => Stops.left (Stops.demand (by simp [given_null]) _) _
    dsimp only
    refine Sp.smalloc hl ?_ fun i4 => ?_
    · exact Stops.left (Stops.demand (by simp [given_null]) _) _
    dsimp only
    refine Sp.quiet (Al.demand_true rfl _) (Sp.quiet (Al.touch_blk _ _) (Sp.quiet (Al.touch_blk _ _)
      (Sp.quiet (Al.touch_blk _ _) (Sp.quiet (Al.touch_blk _ _) ?_))))
    exact Sp.pure _

theorem recvListsA_sp {z : TypeSizes} (hz : z.Pos) (k : RSkel) (r : RemapLife) :
    Sp (r.recvListsA z k) (List.replicate (if k.nrecvAll ≠ 0 then 6 else 0) Care.reported) (r.recvLists z k) := by
  unfold recvListsA recvLists
  by_cases h0 : k.nrecvAll = 0
  · have hn : ¬ k.nrecvAll ≠ 0 := fun h => h h0
    simp only [Al.mallocIf_neg hn, Heap.mallocIf_neg hn, if_neg hn, Al.pure_bind]
    have hz0 : ∀ x : Int, (k.nrecvAll : Int) * x = 0 := by
      intro x
      rw [h0]
      simp
    refine Sp.quiet (Al.demand_true (by rw [h0]; rfl) _) (Sp.quiet (Al.touch_zero _ (hz0 _))
      (Sp.quiet (Al.touch_zero _ (hz0 _)) (Sp.quiet (Al.touch_zero _ (hz0 _)) (Sp.quiet (Al.touch_zero _ (hz0 _))
        (Sp.quiet (Al.touch_zero _ (hz0 _)) ?_)))))
    exact (Sp.pure _).congr fun h => rfl
  · have hb : (k.nrecvAll == 0) = false := by simpa using h0
    have hp : 0 < (k.nrecvAll : Int) := by omega
    have hi : 0 < (k.nrecvAll : Int) * z.int := mul_pos hp hz.int
    have hl : 0 < (k.nrecvAll : Int) * z.plan := mul_pos hp hz.plan
    have hr : 0 < (k.nrecvAll : Int) * z.request := mul_pos hp hz.request
    have h0' : k.nrecvAll ≠ 0 := h0
    simp only [Al.mallocIf_pos h0', Heap.mallocIf_pos h0', if_pos h0', hb, Bool.false_or]
    refine Sp.smalloc hi ?_ fun i1 => ?_
    · exact Stops.smalloc fun _ => Stops.smalloc fun _ => Stops.smalloc fun _ => Stops.smalloc fun _ => Stops.smalloc fun _ => Stops.left (Stops.demand (by simp [given_null]) _) _
    dsimp only
    refine Sp.smalloc hi ?_ fun i2 => ?_
    · exact Stops.smalloc fun _ => Stops.smalloc fun _ => Stops.smalloc fun _ => Stops.smalloc fun _ => Stops.left (Stops.demand (by simp [given_null]) _) _
    dsimp only
    refine Sp.smalloc hi ?_ fun i3 => ?_
    · exact Stops.smalloc fun _ => Stops.smalloc fun _ => Stops.smalloc fun _ => Stops.left (Stops.demand (by simp [given_null]) _) _
    dsimp only
    refine Sp.smalloc hi ?_ fun i4 => ?_
    · exact Stops.smalloc fun _ => Stops.smalloc fun _ => Stops.left (Stops.demand (by simp [given_null]) _) _
    dsimp only
    refine Sp.smalloc hr ?_ fun i5 => ?_
    · exact Stops.smalloc fun _ => Stops.left (Stops.demand (by simp [given_null]) _) _
    dsimp only
    refine Sp.smalloc hl ?_ fun i6 => ?_
    · exact Stops.left (Stops.demand (by simp [given_null]) _) _
    dsimp only
    refine Sp.quiet (Al.demand_true rfl _) (Sp.quiet (Al.touch_blk _ _) (Sp.quiet (Al.touch_blk _ _)
      (Sp.quiet (Al.touch_blk _ _) (Sp.quiet (Al.touch_blk _ _) (Sp.quiet (Al.touch_blk _ _) ?_)))))
    exact Sp.pure _

end RemapLife

/-- One optional buffer: `if (c) { p = smalloc(n); if (!p) error->one(..); }`. -/
theorem Sp.buf {β : Type} {c : Prop} [Decidable c] {n : Int} (hn : c → 0 < n) (p : Ptr) (msg : String) {K : Ptr → Al β}
    {L : List Care} {F : Ptr × Heap → Option (β × Heap)} (h1 : ∀ q, Sp (K q) L (fun h => F (q, h))) :
    Sp (Al.mallocIf c p n >>= fun q => Al.demand (!decide c || q.given) msg >>= fun _ => K q)
      (List.replicate (if c then 1 else 0) Care.reported ++ L) (fun h => (h.mallocIf c p n).bind F) := by
  by_cases hc : c
  · simp only [Al.mallocIf_pos hc, Heap.mallocIf_pos hc, if_pos hc, decide_eq_true hc]
    refine Sp.smalloc (hn hc) ?_ fun id => ?_
    · exact Stops.left (Stops.demand rfl _) _
    · exact Sp.quiet (Al.demand_true rfl _) (h1 _)
  · simp only [Al.mallocIf_neg hc, Heap.mallocIf_neg hc, if_neg hc, decide_eq_false hc]
    exact Sp.quiet (u := Al.demand (!false || p.given) msg) (Al.demand_true rfl _) (h1 _)

namespace RemapLife

/-- Requests for buffers. -/
def bufReqs (k : RSkel) (memoryflag : Int) : List Care :=
  List.replicate (if memoryflag ≠ 0 ∧ k.sendsize ≠ 0 then 1 else 0) Care.reported ++
    (List.replicate (if memoryflag ≠ 0 ∧ k.recvsize ≠ 0 then 1 else 0) Care.reported ++ [])

theorem bufsA_sp {z : TypeSizes} (hz : z.Pos) {k : RSkel} (hk : k.OK) (mf : Int) (r : RemapLife) :
    Sp (r.bufsA z k mf) (bufReqs k mf) (r.setupBufs z k mf) := by
  unfold bufsA setupBufs bufReqs
  refine Sp.buf (fun h => mul_pos ?_ hz.scalar) _ _ fun q => Sp.buf (fun h => mul_pos ?_ hz.scalar) _ _ fun q' =>
    Sp.pure _
  · have := hk.sendsize
    omega
  · have := hk.recvsize
    omega

/-- Requests for `pflag`, `pgroup`, and the reallocated `pgroup`. -/
def groupReqs (k : RSkel) : List Care :=
  .fatal :: if k.ngroup ≠ 0 then [.fatal, .fatal] else [.unused]

theorem groupA_sp {z : TypeSizes} (hz : z.Pos) {k : RSkel} (hP : 0 < k.nprocs) (r : RemapLife) :
    Sp (r.groupA z k) (groupReqs k) (r.setupGroup z k) := by
  unfold groupA setupGroup groupReqs
  have hp : 0 < (k.nprocs : Int) * z.int := mul_pos (by omega) hz.int
  have hcomm : ∀ h : Heap, h.Named → (if k.inGroup = true then h.new .comm 0 else (Ptr.null, h)).2.Named := by
    intro h hh
    by_cases hi : k.inGroup = true
    · rw [if_pos hi]
      exact hh.new _ _
    · rw [if_neg hi]
      exact hh
  refine Sp.smallocBad hp (fun g s => Al.touch_null hp _ g s) fun i1 => ?_
  refine Sp.quiet (Al.touch_blk _ _) ?_
  dsimp only
  by_cases hg : k.ngroup = 0
  · rw [if_neg (fun h => h hg)]
    have h0 : (k.ngroup : Int) * z.int = 0 := by rw [hg]; simp
    rw [h0]
    have ht : ∀ p, Al.touch p 0 = Pure.pure () := fun p => Al.touch_zero p rfl
    simp only [ht, Al.pure_bind]
    have key : ∀ p : Ptr, (Al.srealloc p 0 >>= fun pgroup => Al.sfree (.blk i1) >>= fun _ =>
        Al.onHeap (fun h => if k.inGroup = true then h.new .comm 0 else (Ptr.null, h)) >>= fun newcomm =>
          (Pure.pure { r with pgroup := some pgroup, newcomm := some newcomm } : Al RemapLife)) =
        (Al.srealloc p 0 >>= fun _ => Al.sfree (.blk i1) >>= fun _ =>
        Al.onHeap (fun h => if k.inGroup = true then h.new .comm 0 else (Ptr.null, h)) >>= fun newcomm =>
          (Pure.pure { r with pgroup := some .null, newcomm := some newcomm } : Al RemapLife)) := by
      intro p
      funext g s
      simp only [Al.bind_eq, Al.srealloc, if_pos, Al.bind]
      cases Al.sfree p g s with
      | ub => rfl
      | stop e => rfl
      | ok x => rfl
    simp only [key]
    refine (Sp.smallocUnused hp ((Sp.sfree (.blk i1)).bind fun _ => (Sp.onHeap hcomm).bind fun c =>
      Sp.pure _)).congr fun h => ?_
    dsimp only [Option.bind_eq_bind]
    congr 1
    funext x
    unfold Heap.srealloc
    have h2 : ∀ h : Heap, h.smalloc 0 = some (.null, h) := fun h => rfl
    simp only [Option.bind_eq_bind, h2]
    cases x.2.free (.sfree x.1) with
    | none => rfl
    | some h' =>
      dsimp only [Option.bind_some, Option.map_some]
      cases h'.free (.sfree (.blk i1)) <;> rfl
  · have hn : 0 < (k.ngroup : Int) * z.int := mul_pos (by omega) hz.int
    rw [if_pos hg]
    refine Sp.smallocBad hp (fun g s => Al.touch_null hn _ g s) fun i2 => ?_
    refine Sp.quiet (Al.touch_blk _ _) ?_
    dsimp only
    refine Sp.sreallocBad hn _ (fun g s => Al.touch_null hn _ g s) fun i3 => ?_
    refine Sp.quiet (Al.touch_blk _ _) ?_
    refine ((Sp.sfree (.blk i1)).bind fun _ => (Sp.onHeap hcomm).bind fun c => Sp.pure _).congr fun h => ?_
    dsimp only
    cases h.free (.sfree (.blk i1)) with
    | none => rfl
    | some h' => rfl

theorem argsA_sp {z : TypeSizes} (hz : z.Pos) (k : RSkel) (r : RemapLife) :
    Sp (r.argsA z k) (List.replicate (if k.ngroup ≠ 0 then 6 else 0) Care.reported) (r.setupArgs z k) := by
  unfold argsA setupArgs
  by_cases hg : k.ngroup = 0
  · have h0 : z.int * (k.ngroup : Int) = 0 := by rw [hg]; simp
    rw [if_neg (fun h => h hg), h0]
    have h1 : Al.smalloc 0 = Pure.pure .null := rfl
    have h2 : ∀ h : Heap, h.smalloc 0 = some (.null, h) := fun h => rfl
    have ht : ∀ p, Al.touch p 0 = Pure.pure () := fun p => Al.touch_zero p rfl
    simp only [h1, h2, ht, Al.pure_bind]
    refine Sp.quiet (Al.demand_true (by rw [hg]; simp) _) ?_
    exact Sp.pure _
  rw [if_pos hg]
  have hn : 0 < z.int * (k.ngroup : Int) := mul_pos hz.int (by omega)
  have hb : (k.ngroup == 0) = false := by simpa using hg
  simp only [hb, Bool.or_false]
  refine Sp.smalloc hn ?_ fun i1 => ?_
  · exact Stops.smalloc fun _ => Stops.smalloc fun _ => Stops.smalloc fun _ => Stops.smalloc fun _ => Stops.smalloc fun _ => Stops.left (Stops.demand (by simp [given_null]) _) _
  dsimp only
  refine Sp.smalloc hn ?_ fun i2 => ?_
  · exact Stops.smalloc fun _ => Stops.smalloc fun _ => Stops.smalloc fun _ => Stops.smalloc fun _ => Stops.left (Stops.demand (by simp [given_null]) _) _
  dsimp only
  refine Sp.smalloc hn ?_ fun i3 => ?_
  · exact Stops.smalloc fun _ => Stops.smalloc fun _ => Stops.smalloc fun _ => Stops.left (Stops.demand (by simp [given_null]) _) _
  dsimp only
  refine Sp.smalloc hn ?_ fun i4 => ?_
  · exact Stops.smalloc fun _ => Stops.smalloc fun _ => Stops.left (Stops.demand (by simp [given_null]) _) _
  dsimp only
  refine Sp.smalloc hn ?_ fun i5 => ?_
  · exact Stops.smalloc fun _ => Stops.left (Stops.demand (by simp [given_null]) _) _
  dsimp only
  refine Sp.smalloc hn ?_ fun i6 => ?_
  · exact Stops.left (Stops.demand (by simp [given_null]) _) _
  dsimp only
  refine Sp.quiet (Al.demand_true rfl _) (Sp.quiet (Al.touch_blk _ _) (Sp.quiet (Al.touch_blk _ _)
    (Sp.quiet (Al.touch_blk _ _) (Sp.quiet (Al.touch_blk _ _) (Sp.quiet (Al.touch_blk _ _)
      (Sp.quiet (Al.touch_blk _ _) ?_))))))
  exact Sp.pure _

/-- The requests of `setup`: what does a denied one lead to? -/
def setupReqs (k : RSkel) (memoryflag : Int) (collective : Bool) : List Care :=
  .reported :: .reported :: (List.replicate (if k.nsendAll ≠ 0 then 4 else 0) Care.reported ++
    (List.replicate (if k.nrecvAll ≠ 0 then 6 else 0) Care.reported ++
      (if collective then groupReqs k ++ (bufReqs k memoryflag ++ List.replicate (if k.ngroup ≠ 0 then 6 else 0) Care.reported)
       else bufReqs k memoryflag)))

theorem sendLists_coll {z : TypeSizes} {k : RSkel} {r r' : RemapLife} {h h' : Heap}
    (e : r.sendLists z k h = some (r', h')) : r'.collective = r.collective := by
  unfold sendLists at e
  simp only [Option.bind_eq_bind, Option.bind_eq_some_iff] at e
  obtain ⟨_, _, _, _, _, _, _, _, e⟩ := e
  exact (congrArg (fun x => x.1.collective) (Option.some.inj e)).symm

theorem recvLists_coll {z : TypeSizes} {k : RSkel} {r r' : RemapLife} {h h' : Heap}
    (e : r.recvLists z k h = some (r', h')) : r'.collective = r.collective := by
  unfold recvLists at e
  simp only [Option.bind_eq_bind, Option.bind_eq_some_iff] at e
  obtain ⟨_, _, _, _, _, _, _, _, _, _, _, _, e⟩ := e
  exact (congrArg (fun x => x.1.collective) (Option.some.inj e)).symm

/-- `setup` of a remap. -/
theorem setupA_sp {z : TypeSizes} (hz : z.Pos) {k : RSkel} (hk : k.OK) (hP : 0 < k.nprocs) (mf : Int) (r : RemapLife) :
    Sp (r.setupA z k mf) (setupReqs k mf (decide (r.collective ≠ 0))) (r.setup z k mf) := by
  have he : 0 < (k.nprocs : Int) * z.extent := mul_pos (by omega) hz.extent
  unfold setupA setup setupReqs
  simp only [setupLists_eq]
  refine Sp.smalloc he ?_ fun i1 => ?_
  · exact Stops.left (Stops.demand rfl _) _
  refine Sp.quiet (Al.demand_true rfl _) ?_
  dsimp only
  refine Sp.smalloc he ?_ fun i2 => ?_
  · exact Stops.left (Stops.demand rfl _) _
  refine Sp.quiet (Al.demand_true rfl _) (Sp.quiet (Al.touch_blk _ _) ?_)
  dsimp only
  have last : ∀ r : RemapLife, Sp (do
      Al.sfree (.blk i1)
      Al.sfree (.blk i2)
      return { r with setupflag := true, memoryflag := some mf
                      memusage := remapMemusage z k mf r.collective, skel := some k }) []
      (fun h => (h.free (.sfree (.blk i1))).bind fun h => (h.free (.sfree (.blk i2))).bind fun h =>
        some ({ r with setupflag := true, memoryflag := some mf
                       memusage := remapMemusage z k mf r.collective, skel := some k }, h)) := by
    intro r
    refine ((Sp.sfree (.blk i1)).bind fun _ => (Sp.sfree (.blk i2)).bind fun _ => Sp.pure _).congr fun h => ?_
    cases h.free (.sfree (.blk i1)) with
    | none => rfl
    | some h' =>
      dsimp only [Option.bind_some, Option.map_some]
      cases h'.free (.sfree (.blk i2)) <;> rfl
  have mid : ∀ r' : RemapLife, r'.collective = r.collective →
      Sp (if r'.collective = 0 then r'.bufsA z k mf
          else do
            let r ← r'.groupA z k
            let r ← r.bufsA z k mf
            r.argsA z k)
        (if decide (r.collective ≠ 0) = true then
            groupReqs k ++ (bufReqs k mf ++ List.replicate (if k.ngroup ≠ 0 then 6 else 0) Care.reported)
         else bufReqs k mf)
        (fun h => if r'.collective = 0 then r'.setupBufs z k mf h
          else do
            let (r, h) ← r'.setupGroup z k h
            let (r, h) ← r.setupBufs z k mf h
            r.setupArgs z k h) := by
    intro r' hr
    by_cases hc : r'.collective = 0
    · have hd : decide (r.collective ≠ 0) = false := by rw [← hr, hc]; rfl
      simp only [if_pos hc, hd]
      exact bufsA_sp hz hk mf r'
    · have hd : decide (r.collective ≠ 0) = true := decide_eq_true (by rw [← hr]; exact hc)
      simp only [if_neg hc, hd, if_true]
      exact ((groupA_sp hz hP r').bind fun a => (bufsA_sp hz hk mf a).bind fun b => argsA_sp hz k b).congr
        fun h => rfl
  refine (((sendListsA_sp hz k r).bindOf fun r1 h1 h1' e1 => Sp.quiet (Al.touch_blk _ _)
    ((recvListsA_sp hz k r1).bindOf fun r2 h2 h2' e2 => (mid r2 ((recvLists_coll e2).trans (sendLists_coll e1))).bind
      fun r3 => last r3)).cast ?_).congr fun h => ?_
  · simp only [List.append_nil]
  · simp only [Option.bind_eq_bind, Option.bind_assoc]
    congr 1
    funext a
    congr 1
    funext b
    by_cases hc : b.1.collective = 0
    · simp only [if_pos hc]
    · simp only [if_neg hc, Option.bind_assoc]

end RemapLife

end FftMpi
