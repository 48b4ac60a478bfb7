import Verif.Remap2d32Lemmas
import Verif.PropsRemap3d
import Verif.PropsRemap2d

/-!
# Property C48: 32-bit arithmetic of the remap plans

The claim "if `nqty` times each rank's box volume fits in an `int`, then everything that `setup` and the
pack routines compute fits as well" is **false** for the code, in four ways (`C48_*_false` below).  The
`_partial` theorems show what is true: under conditions that are spelled out in `Call3.Small` and
`Call2.Small` no `int` operation of `setup`, `remap` or the pack routines overflows and the code with
32-bit arithmetic is the code with unbounded arithmetic, for which the other properties are proved.

Missing from the full statement: the volume condition is replaced by the conditions of `Small`.
-/

namespace FftMpi

variable {α : Type}

/-- The largest `int`. -/
def int32Max : Int := 2147483647

theorem initCfg_congr {P : Nat} {p p' : Nat → List (Instr α)} (h : ∀ r < P, p r = p' r)
    (m : Nat → LMem α) : initCfg P p m = initCfg P p' m := by
  unfold initCfg
  congr 1
  funext r
  by_cases hr : r < P
  · rw [if_pos hr, if_pos hr, h r hr]
  · rw [if_neg hr, if_neg hr]

theorem Terminates.congr {e : Bool} {P : Nat} {p p' : Nat → List (Instr α)} {m m' : Nat → LMem α}
    (h : Terminates e P p m m') (hp : ∀ r < P, p' r = p r) : Terminates e P p' m m' := by
  have e1 := initCfg_congr hp m
  refine ⟨?_, ?_, ?_⟩ <;> rw [e1]
  · exact h.bounded
  · exact h.stuck
  · exact h.safe

/-! ## 3d -/

/-- Conditions for a 3d remap, `sz = sizeof(FFT_SCALAR)`.  Besides the volumes (`vin`, `vout`), they
exclude the four situations of the counterexamples below. -/
structure Call3.Small (sz : Int) (P : Nat) (c : Call3) : Prop where
  procs : 7 * (P : Int) ≤ int32Max
  bounds : ∀ r < P, (c.ins r).InInt ∧ (c.outs r).InInt
  vin : ∀ r < P, c.nqty * max 1 (c.ins r).isize * max 1 (c.ins r).jsize * max 1 (c.ins r).ksize ≤ int32Max
  vout : ∀ r < P, c.nqty * max 1 (c.outs r).isize * max 1 (c.outs r).jsize * max 1 (c.outs r).ksize ≤ int32Max
  origin : ∀ r < P, (c.ins r).isize * (c.ins r).jsize + (c.ins r).ihi ≤ int32Max
  bytes_in : c.packflag = 2 → ∀ r < P, c.nqty * (c.ins r).isize * sz ≤ int32Max
  bytes_out : c.packflag = 2 → c.permute = 0 → ∀ r < P, c.nqty * (c.outs r).isize * sz ≤ int32Max
  arrays : c.packflag = 0 → c.permute ≠ 0 → ∀ r < P,
    2 * (c.nqty * (c.outs r).isize * (c.outs r).jsize * (c.outs r).ksize) ≤ int32Max

/-- The object that `setup` makes with 32-bit arithmetic. -/
def Call3.Setup32 (sz : Int) (P : Nat) (c : Call3) (obj : Nat → RemapObj α PackPlan3) : Prop :=
  ∀ r < P, remapSetup32 (dim3_32 sz) P r c.ins c.outs c.nqty c.permute c.packflag c.collective =
    some (obj r)

/-- The program of rank `r` with 32-bit arithmetic. -/
def Call3.prog32 (c : Call3) (obj : Nat → RemapObj α PackPlan3) (r : Nat) : List (Instr α) :=
  (obj r).prog32 c.collective c.inst c.ai c.ao

theorem Box3.InInt.nonneg {b : Box3} (h : b.InInt) : 0 ≤ b.isize ∧ 0 ≤ b.jsize ∧ 0 ≤ b.ksize := by
  obtain ⟨_, _, _, h1, h2, h3⟩ := h
  unfold Box3.isize Box3.jsize Box3.ksize
  omega

/-- Volume bound in the form used by the lemmas. -/
theorem vol_bound {q : Int} {b : Box3} (hq : 1 ≤ q) (h0 : b.InInt)
    (h : q * max 1 b.isize * max 1 b.jsize * max 1 b.ksize ≤ int32Max) :
    q * b.isize * b.jsize * b.ksize ≤ 2147483647 := by
  obtain ⟨hi, hj, hk⟩ := h0.nonneg
  have := mul_le4 (a := q) (b := b.isize) (c := b.jsize) (d := b.ksize) (A := q)
    (B := max 1 b.isize) (C := max 1 b.jsize) (D := max 1 b.ksize) (by omega) hi hj hk le_rfl
    (le_max_right _ _) (le_max_right _ _) (le_max_right _ _)
  unfold int32Max at h
  omega

theorem size3_within {q : Int} {b ov : Box3} (hq : 1 ≤ q) (hw : ov.Inside b)
    (hV : q * b.isize * b.jsize * b.ksize ≤ 2147483647) :
    size3_32 q ov = some (size3 q ov) ∧ 0 ≤ size3 q ov := by
  obtain ⟨s1, s2, s3⟩ := hw.sizes
  have := mul_le4 (a := q) (b := ov.isize) (c := ov.jsize) (d := ov.ksize) (A := q)
    (B := b.isize) (C := b.jsize) (D := b.ksize) (by omega) (by omega) (by omega) (by omega) le_rfl
    s1.2 s2.2 s3.2
  refine ⟨size3_32_eq hq (by omega) (by omega) (by omega) ?_, this.1⟩
  rw [max_eq_right s1.1, max_eq_right s2.1, max_eq_right s3.1]
  omega

theorem Call3.Small.safe {sz : Int} {P : Nat} {c : Call3} (hs : c.Small sz P) (hv : c.Valid P)
    (hd : Disjoint3 P c.outs) {me : Nat} (hme : me < P) :
    Safe32 (dim3_32 sz : Dim32 α Box3 PackPlan3) dim3 P me c.ins c.outs c.nqty c.permute := by
  have bi := (hs.bounds me hme).1
  have bo := (hs.bounds me hme).2
  have vi := vol_bound hv.nqty bi (hs.vin me hme)
  have vo := vol_bound hv.nqty bo (hs.vout me hme)
  have hq := hv.nqty
  constructor
  · exact bi.extent
  · exact bo.extent
  · intro i hi j hj; exact collide3_32_eq (hs.bounds i hi).1 (hs.bounds j hj).2
  · intro i hi j hj; exact collide3_32_eq (hs.bounds i hi).2 (hs.bounds j hj).1
  · intro p hp ov hov
    obtain ⟨hw, -⟩ := collide3_within hov
    obtain ⟨z1, z2⟩ := size3_within hq hw vi
    refine ⟨sendOff3_32_eq hq hw bi ?_ (hs.origin me hme), sendPlan3_32_eq hq hw vi, z1, z2⟩
    rw [show c.nqty * ((c.ins me).ksize * (c.ins me).jsize * (c.ins me).isize) =
      c.nqty * (c.ins me).isize * (c.ins me).jsize * (c.ins me).ksize by ring]
    exact vi
  · intro p hp ov hov
    obtain ⟨hw, -⟩ := collide3_within hov
    obtain ⟨z1, z2⟩ := size3_within hq hw vo
    exact ⟨recvOff3_32_eq hv.permute hq hw vo, recvPlan3_32_eq hv.permute hq hw vo, z1, z2⟩
  · obtain ⟨n1, n2, n3⟩ := bo.nonneg
    exact size3_32_eq hq n1 n2 n3 (hs.vout me hme)
  · intro ps hn hlt
    refine wsize3_sum (by omega) hd (by decide) ?_ hn hlt
    unfold Box3.vol
    rw [← mul_assoc, ← mul_assoc]; exact vi
  · intro ps hn hlt
    refine wsize3_sum (by omega) hv.disjoint (by decide) ?_ hn hlt
    unfold Box3.vol
    rw [← mul_assoc, ← mul_assoc]; exact vo
  · exact hs.procs

theorem Call3.Small.copies {sz : Int} {P : Nat} {c : Call3} (hs : c.Small sz P) (hsz : 1 ≤ sz)
    (hv : c.Valid P) {me : Nat} (hme : me < P) :
    SafeCopy (dim3_32 sz : Dim32 α Box3 PackPlan3) dim3 P me c.ins c.outs c.nqty c.permute c.packflag := by
  have bi := (hs.bounds me hme).1
  have bo := (hs.bounds me hme).2
  have vi := vol_bound hv.nqty bi (hs.vin me hme)
  have vo := vol_bound hv.nqty bo (hs.vout me hme)
  constructor
  · intro p hp ov hov
    exact pack3_32_eq hv.packflag hv.nqty (collide3_within hov).1 vi hsz (fun h => hs.bytes_in h me hme)
  · intro p hp ov hov
    exact unpack3_32_eq hv.packflag hv.permute hv.nqty (collide3_within hov).1 vo hsz
      (fun h h' => hs.bytes_out h h' me hme) (fun h h' => hs.arrays h h' me hme)

/-- **C48, 3d, partial**: under the conditions of `Call3.Small`, `setup` with 32-bit arithmetic succeeds
on every rank, all entries of its tables and its sizes are those of the unbounded model, and the
instructions that `remap` executes with 32-bit arithmetic (including all index computations of the pack
routines) are those of the unbounded model. -/
theorem C48_remap3d_partial {sz : Int} (hsz : 1 ≤ sz) {P : Nat} (c : Call3) (hv : c.Valid P)
    (hd : Disjoint3 P c.outs) (hs : c.Small sz P) (obj : Nat → RemapObj α PackPlan3)
    (hobj : c.Setup P obj) :
    ∃ obj32, c.Setup32 sz P obj32 ∧ ∀ r < P,
      (obj32 r).sends = (obj r).sends ∧ (obj32 r).recvs = (obj r).recvs ∧
      (obj32 r).nsend = (obj r).nsend ∧ (obj32 r).nrecv = (obj r).nrecv ∧
      (obj32 r).self = (obj r).self ∧ (obj32 r).coll = (obj r).coll ∧
      (obj32 r).sendsize = (obj r).sendsize ∧ (obj32 r).recvsize = (obj r).recvsize ∧
      c.prog32 obj32 r = c.prog obj r := by
  have h : ∀ r < P, ∃ o', remapSetup32 (dim3_32 sz) P r c.ins c.outs c.nqty c.permute c.packflag
      c.collective = some o' ∧ o'.sends = (obj r).sends ∧ o'.recvs = (obj r).recvs ∧
      o'.nsend = (obj r).nsend ∧ o'.nrecv = (obj r).nrecv ∧ o'.self = (obj r).self ∧
      o'.coll = (obj r).coll ∧ o'.sendsize = (obj r).sendsize ∧ o'.recvsize = (obj r).recvsize ∧
      ∀ coll inst ai ao, o'.prog32 coll inst ai ao = (obj r).prog coll inst ai ao :=
    fun r hr => (hs.safe hv hd hr).main hr (hs.copies hsz hv hr) c.collective (hobj r hr)
  have : Nonempty (RemapObj α PackPlan3) := ⟨⟨[], [], 0, 0, false, none, none, none, 0, 0⟩⟩
  choose! obj32 h1 h2 h3 h4 h5 h6 h7 h8 h9 h10 using h
  exact ⟨obj32, h1, fun r hr => ⟨h2 r hr, h3 r hr, h4 r hr, h5 r hr, h6 r hr, h7 r hr, h8 r hr, h9 r hr,
    h10 r hr _ _ _ _⟩⟩

/-- Consequence: the remap with 32-bit arithmetic delivers the data, under every schedule. -/
theorem C48_remap3d_delivers_partial (e : Bool) {sz : Int} (hsz : 1 ≤ sz) {P : Nat} (c : Call3)
    (hv : c.Valid P) (hd : Disjoint3 P c.outs) (hs : c.Small sz P)
    (obj : Nat → RemapObj α PackPlan3) (hobj : c.Setup32 sz P obj)
    (m : Nat → LMem α) (hm : c.Fits P obj m) :
    ∃ m', Terminates e P (c.prog32 obj) m m' ∧ c.Post P (fun r => (m r).ub) (fun r => (m' r).ub) := by
  obtain ⟨o, ho⟩ := setup3_exists (α := α) P c hv.nqty hv.permute hv.packflag
  obtain ⟨o32, h1, h2⟩ := C48_remap3d_partial hsz c hv hd hs o ho
  have heq : ∀ r < P, o32 r = obj r := fun r hr => Option.some_inj.mp ((h1 r hr).symm.trans (hobj r hr))
  have hm' : c.Fits P o m := by
    refine ⟨hm.inp, hm.out, fun r hr => ?_, fun r hr => ?_⟩
    · rw [← (h2 r hr).2.2.2.2.2.2.1, heq r hr]; exact hm.sb r hr
    · rw [← (h2 r hr).2.2.2.2.2.2.2.1, heq r hr]; exact hm.rb r hr
  obtain ⟨m', h3, h4, -⟩ := remap3_main e hv ho hm'
  refine ⟨m', ?_, h4⟩
  refine h3.terminates.congr fun r hr => ?_
  rw [← (h2 r hr).2.2.2.2.2.2.2.2]
  unfold Call3.prog32
  rw [heq r hr]

/-- The hypotheses are met: the example of C01. -/
example (p f : Int) (coll : Bool) (ai ao : Nat) : (demo p f coll ai ao).Small 8 2 := by
  constructor
  · decide
  · intro r hr; constructor <;> constructor <;> simp only [demo] <;> omega
  all_goals
    intros
    norm_num [demo, Box3.isize, Box3.jsize, Box3.ksize, int32Max]

/-- A large one: 16 ranks, grid 2048 x 1024 x 1024, slabs in `k` to slabs in `j`, complex data, permuted.
-/
def bigCall : Call3 where
  ins r := ⟨0, 2047, 0, 1023, 64 * r, 64 * r + 63⟩
  outs r := ⟨0, 2047, 64 * r, 64 * r + 63, 0, 1023⟩
  nqty := 2
  permute := 1
  packflag := 2
  collective := true
  inst := 0
  ai := 0
  ao := 0

example : bigCall.Small 8 16 := by
  constructor
  · decide
  · intro r hr; constructor <;> constructor <;> simp only [bigCall] <;> omega
  all_goals
    intros
    norm_num [bigCall, Box3.isize, Box3.jsize, Box3.ksize, int32Max]

/-! ### Counterexamples -/

/-- Two iterations of a loop, the second one undefined. -/
theorem forN_second_none {σ : Type} {f : Int → σ → Option σ} {n : Int} (hn : 2 ≤ n) (s : σ)
    (h : ∀ t, f 0 s = some t → f 1 t = none) : forN n f s = none := by
  unfold forN
  obtain ⟨k, hk⟩ : ∃ k : Nat, n.toNat = k + 2 := ⟨n.toNat - 2, by omega⟩
  rw [hk]
  simp only [forFrom]
  cases e : f 0 s with
  | none => rfl
  | some t =>
    simp only [Option.bind_some]
    rw [show (0 : Int) + 1 = 1 from rfl, h t e]
    rfl

theorem forN_one {σ : Type} (f : Int → σ → Option σ) (s : σ) : forN 1 f s = f 0 s := by
  unfold forN
  rw [show ((1 : Int)).toNat = 1 from rfl]
  simp only [forFrom]
  cases f 0 s <;> rfl

/-- **C48 is false (1)**: one rank, box of 1 x (2^31-1) x 1 points, one value per point, so the volume
is `INT_MAX`; `permute = 1`, array packing.  `setup` succeeds, but the unpack routine computes
`in += nstride_plane` after the last element of a row, past `INT_MAX`: undefined whatever the memory. -/
theorem C48_unpack_false :
    let b : Box3 := ⟨0, 0, 0, 2147483646, 0, 0⟩
    1 * b.vol ≤ int32Max ∧
    (remapSetup32 (dim3_32 8 : Dim32 α Box3 PackPlan3) 1 0 (fun _ => b) (fun _ => b) 1 1 0 false).isSome ∧
    ∃ p : PackPlan3, recvPlan3_32 1 1 b b = some p ∧
      unpackSel3_32 (α := α) 8 0 1 1 = some unpack_3d_permute1_1_array32 ∧
      ∀ (buf data : Mem α) (x y : Int), unpack_3d_permute1_1_array32 buf x data y p = none := by
  refine ⟨by decide, rfl, ⟨1, 2147483647, 1, 2147483647, 2147483647, 1⟩, by decide, rfl, ?_⟩
  intro buf data x y
  unfold unpack_3d_permute1_1_array32
  rw [Option.map_eq_none_iff]
  simp only [forN_one]
  rw [show mul32 0 2147483647 = some 0 by decide, Option.bind_some]
  refine forN_second_none (by decide) _ ?_
  rintro ⟨c, M⟩ _
  rw [show add32 0 1 = some 1 by decide, Option.bind_some]
  rw [Option.map_eq_none_iff]
  unfold row32
  simp only [forN_one]
  rw [show add32 1 2147483647 = none by decide]
  cases copy1 buf M (y + 1) (x + c) <;> rfl

/-- **C48 is false (2)**: an empty box of 65536 x 65536 x 0 points; its volume is 0, but
`nqty*isize*jsize` overflows and `setup` is undefined. -/
theorem C48_empty_false :
    let b : Box3 := ⟨0, 65535, 0, 65535, 0, -1⟩
    1 * b.vol ≤ int32Max ∧ ∀ permute packflag,
      remapSetup32 (dim3_32 8 : Dim32 α Box3 PackPlan3) 1 0 (fun _ => b) (fun _ => b) 1 permute packflag
        false = none := by
  refine ⟨by decide, fun permute packflag => ?_⟩
  have h1 : ∀ b, b = (⟨0, 65535, 0, 65535, 0, -1⟩ : Box3) → size3_32 1 b = none := by
    rintro b rfl; decide
  have h2 : collide3_32 (⟨0, 65535, 0, 65535, 0, -1⟩ : Box3) ⟨0, 65535, 0, 65535, 0, -1⟩ = some none := by
    decide
  have h3 : extent3_32 (⟨0, 65535, 0, 65535, 0, -1⟩ : Box3) = true := by decide
  have h4 : procLoop 1 1 0 = [0] := by decide
  unfold remapSetup32
  simp [dim3_32, h1, h2, h3, h4, sendEnts32, recvEnts32]

/-- **C48 is false (3)**: memcpy packing of 2^29 contiguous values.  The number of bytes is
reduced modulo 2^32 when it is stored in an `int`: the routine copies nothing. -/
theorem C48_memcpy_false :
    let b : Box3 := ⟨0, 536870911, 0, 0, 0, 0⟩
    1 * b.vol ≤ int32Max ∧ (∃ p, sendPlan3_32 1 b b = some p ∧
      packSel3_32 (α := α) 8 2 = some (pack_3d_memcpy32 8) ∧
      ∀ (data buf : Mem α) (x y : Int), pack_3d_memcpy32 8 data x buf y p = some buf) := by
  refine ⟨by decide, ⟨536870912, 1, 1, 536870912, 536870912, 1⟩, by decide, rfl, ?_⟩
  intro data buf x y
  unfold pack_3d_memcpy32
  simp only []
  rw [show wrap32 (536870912 * 8) = 0 by decide]
  simp only [forN_one]
  rw [show mul32 0 536870912 = some 0 by decide, show mul32 0 1 = some 0 by decide]
  simp only [Option.bind_some]
  rw [show mul32 0 536870912 = some 0 by decide]
  simp only [Option.bind_some]
  rw [show add32 0 0 = some 0 by decide]
  simp only [Option.bind_some]
  rfl

/-- **C48 is false (4)**: a box of 2 x 65536 x 1 points far from the origin.  The expression
`(overlap.jlo-in.jlo)*in.isize + overlap.ilo-in.ilo` is evaluated from left to right and overflows
before `in.ilo` is subtracted, so `setup` is undefined. -/
theorem C48_offset_false :
    let b : Box3 := ⟨2147480000, 2147480001, 0, 65535, 0, 0⟩
    let o : Nat → Box3 := fun r => if r = 0 then ⟨2147480000, 2147480001, 0, 65534, 0, 0⟩
      else ⟨2147480000, 2147480001, 65535, 65535, 0, 0⟩
    let i : Nat → Box3 := fun r => if r = 0 then b else ⟨0, -1, 0, -1, 0, -1⟩
    1 * b.vol ≤ int32Max ∧ Disjoint3 2 i ∧ Disjoint3 2 o ∧ ∀ permute packflag,
      remapSetup32 (dim3_32 8 : Dim32 α Box3 PackPlan3) 2 0 i o 1 permute packflag false = none := by
  refine ⟨by decide, ?_, ?_, fun permute packflag => ?_⟩
  · intro a ha b hb x y z h1 h2
    by_cases a0 : a = 0 <;> by_cases b0 : b = 0
    · omega
    · simp only [if_neg b0, Box3.Has] at h2; omega
    · simp only [if_neg a0, Box3.Has] at h1; omega
    · omega
  · intro a ha b hb x y z h1 h2
    by_cases a0 : a = 0 <;> by_cases b0 : b = 0
    · omega
    · simp only [if_pos a0, if_neg b0, Box3.Has] at h1 h2; omega
    · simp only [if_neg a0, if_pos b0, Box3.Has] at h1 h2; omega
    · omega
  · have h3 : extent3_32 (⟨2147480000, 2147480001, 0, 65535, 0, 0⟩ : Box3) = true := by decide
    have h4 : procLoop 2 2 0 = [1, 0] := by decide
    have h5 : collide3_32 (⟨2147480000, 2147480001, 0, 65535, 0, 0⟩ : Box3)
        ⟨2147480000, 2147480001, 65535, 65535, 0, 0⟩ =
        some (some ⟨2147480000, 2147480001, 65535, 65535, 0, 0⟩) := by decide
    have h6 : sendOff3_32 1 (⟨2147480000, 2147480001, 0, 65535, 0, 0⟩ : Box3)
        ⟨2147480000, 2147480001, 65535, 65535, 0, 0⟩ = none := by decide
    unfold remapSetup32
    simp [dim3_32, h3, h4, h5, h6, sendEnts32]

/-! ## 2d -/

/-- Conditions for a 2d remap. -/
structure Call2.Small (P : Nat) (c : Call2) : Prop where
  procs : 7 * (P : Int) ≤ int32Max
  bounds : ∀ r < P, (c.ins r).InInt ∧ (c.outs r).InInt
  vin : ∀ r < P, c.nqty * max 1 (c.ins r).isize * max 1 (c.ins r).jsize ≤ int32Max
  vout : ∀ r < P, c.nqty * max 1 (c.outs r).isize * max 1 (c.outs r).jsize ≤ int32Max
  origin : ∀ r < P, (c.ins r).isize * (c.ins r).jsize + (c.ins r).ihi ≤ int32Max
  bytes_in : c.packflag = 2 → ∀ r < P, c.nqty * (c.ins r).isize * 8 ≤ int32Max
  bytes_out : c.packflag = 2 → c.permute = 0 → ∀ r < P, c.nqty * (c.outs r).isize * 8 ≤ int32Max
  arrays : c.packflag = 0 → c.permute ≠ 0 → ∀ r < P,
    2 * (c.nqty * (c.outs r).isize * (c.outs r).jsize) ≤ int32Max

/-- The object that `setup` makes with 32-bit arithmetic. -/
def Call2.Setup32 (sz : Int) (P : Nat) (c : Call2) (obj : Nat → RemapObj α PackPlan2) : Prop :=
  ∀ r < P, remapSetup32 (dim2_32 sz) P r c.ins c.outs c.nqty c.permute c.packflag c.collective =
    some (obj r)

/-- The program of rank `r` with 32-bit arithmetic. -/
def Call2.prog32 (c : Call2) (obj : Nat → RemapObj α PackPlan2) (r : Nat) : List (Instr α) :=
  (obj r).prog32 c.collective c.inst c.ai c.ao

theorem Box2.InInt.nonneg {b : Box2} (h : b.InInt) : 0 ≤ b.isize ∧ 0 ≤ b.jsize := by
  obtain ⟨_, _, h1, h2⟩ := h
  unfold Box2.isize Box2.jsize
  omega

/-- Area bound in the form used by the lemmas. -/
theorem area_bound {q : Int} {b : Box2} (hq : 1 ≤ q) (h0 : b.InInt)
    (h : q * max 1 b.isize * max 1 b.jsize ≤ int32Max) : q * b.isize * b.jsize ≤ 2147483647 := by
  obtain ⟨hi, hj⟩ := h0.nonneg
  have := mul_le3 (a := q) (b := b.isize) (c := b.jsize) (A := q)
    (B := max 1 b.isize) (C := max 1 b.jsize) (by omega) hi hj le_rfl
    (le_max_right _ _) (le_max_right _ _)
  unfold int32Max at h
  omega

theorem size2_within {q : Int} {b ov : Box2} (hq : 1 ≤ q) (hw : ov.Inside b)
    (hV : q * b.isize * b.jsize ≤ 2147483647) :
    size2_32 q ov = some (size2 q ov) ∧ 0 ≤ size2 q ov := by
  obtain ⟨s1, s2⟩ := hw.sizes
  have := mul_le3 (a := q) (b := ov.isize) (c := ov.jsize) (A := q)
    (B := b.isize) (C := b.jsize) (by omega) (by omega) (by omega) le_rfl s1.2 s2.2
  refine ⟨size2_32_eq hq (by omega) (by omega) ?_, this.1⟩
  rw [max_eq_right s1.1, max_eq_right s2.1]
  omega

theorem Call2.Small.safe {sz : Int} {P : Nat} {c : Call2} (hs : c.Small P) (hv : c.Valid P)
    (hd : Disjoint2 P c.outs) {me : Nat} (hme : me < P) :
    Safe32 (dim2_32 sz : Dim32 α Box2 PackPlan2) (dim2 c.w) P me c.ins c.outs c.nqty c.permute := by
  have bi := (hs.bounds me hme).1
  have bo := (hs.bounds me hme).2
  have vi := area_bound hv.nqty bi (hs.vin me hme)
  have vo := area_bound hv.nqty bo (hs.vout me hme)
  have hq := hv.nqty
  constructor
  · exact bi.extent
  · exact bo.extent
  · intro i hi j hj; exact collide2_32_eq (hs.bounds i hi).1 (hs.bounds j hj).2
  · intro i hi j hj; exact collide2_32_eq (hs.bounds i hi).2 (hs.bounds j hj).1
  · intro p hp ov hov
    obtain ⟨hw, -⟩ := collide2_within hov
    obtain ⟨z1, z2⟩ := size2_within hq hw vi
    refine ⟨sendOff2_32_eq hq hw bi ?_ (hs.origin me hme), sendPlan2_32_eq hq hw vi, z1, z2⟩
    rw [show c.nqty * ((c.ins me).jsize * (c.ins me).isize) =
      c.nqty * (c.ins me).isize * (c.ins me).jsize by ring]
    exact vi
  · intro p hp ov hov
    obtain ⟨hw, -⟩ := collide2_within hov
    obtain ⟨z1, z2⟩ := size2_within hq hw vo
    exact ⟨recvOff2_32_eq hv.permute hq hw vo, recvPlan2_32_eq hv.permute hq hw vo, z1, z2⟩
  · obtain ⟨n1, n2⟩ := bo.nonneg
    exact size2_32_eq hq n1 n2 (hs.vout me hme)
  · intro ps hn hlt
    exact wsize2_sum (by omega) hd (by decide) vi hn hlt
  · intro ps hn hlt
    exact wsize2_sum (by omega) hv.disjoint (by decide) vo hn hlt
  · exact hs.procs

theorem Call2.Small.copies {sz : Int} {P : Nat} {c : Call2} (hs : c.Small P) (hsz : 1 ≤ sz)
    (hw : 8 = c.w * sz) (hv : c.Valid P) {me : Nat} (hme : me < P) :
    SafeCopy (dim2_32 sz : Dim32 α Box2 PackPlan2) (dim2 c.w) P me c.ins c.outs c.nqty c.permute
      c.packflag := by
  have bi := (hs.bounds me hme).1
  have bo := (hs.bounds me hme).2
  have vi := area_bound hv.nqty bi (hs.vin me hme)
  have vo := area_bound hv.nqty bo (hs.vout me hme)
  have hf : c.packflag = 0 ∨ c.packflag = 1 ∨ c.packflag = 2 := by
    rcases hv.packflag with h | h | h
    · exact Or.inl h
    · exact Or.inr (Or.inl h)
    · exact Or.inr (Or.inr h.1)
  constructor
  · intro p hp ov hov
    exact pack2_32_eq hf hv.nqty (collide2_within hov).1 vi hsz hw (fun h => hs.bytes_in h me hme)
  · intro p hp ov hov
    exact unpack2_32_eq hf hv.permute hv.nqty (collide2_within hov).1 vo hsz hw
      (fun h h' => hs.bytes_out h h' me hme) (fun h h' => hs.arrays h h' me hme)

/-- **C48, 2d, partial**: as `C48_remap3d_partial`.  `sz = sizeof(FFT_SCALAR)`,
`c.w = sizeof(double)/sizeof(FFT_SCALAR)`. -/
theorem C48_remap2d_partial {sz : Int} (hsz : 1 ≤ sz) {P : Nat} (c : Call2) (hw : 8 = c.w * sz)
    (hv : c.Valid P) (hd : Disjoint2 P c.outs) (hs : c.Small P) (obj : Nat → RemapObj α PackPlan2)
    (hobj : c.Setup P obj) :
    ∃ obj32, c.Setup32 sz P obj32 ∧ ∀ r < P,
      (obj32 r).sends = (obj r).sends ∧ (obj32 r).recvs = (obj r).recvs ∧
      (obj32 r).nsend = (obj r).nsend ∧ (obj32 r).nrecv = (obj r).nrecv ∧
      (obj32 r).self = (obj r).self ∧ (obj32 r).coll = (obj r).coll ∧
      (obj32 r).sendsize = (obj r).sendsize ∧ (obj32 r).recvsize = (obj r).recvsize ∧
      c.prog32 obj32 r = c.prog obj r := by
  have h : ∀ r < P, ∃ o', remapSetup32 (dim2_32 sz) P r c.ins c.outs c.nqty c.permute c.packflag
      c.collective = some o' ∧ o'.sends = (obj r).sends ∧ o'.recvs = (obj r).recvs ∧
      o'.nsend = (obj r).nsend ∧ o'.nrecv = (obj r).nrecv ∧ o'.self = (obj r).self ∧
      o'.coll = (obj r).coll ∧ o'.sendsize = (obj r).sendsize ∧ o'.recvsize = (obj r).recvsize ∧
      ∀ coll inst ai ao, o'.prog32 coll inst ai ao = (obj r).prog coll inst ai ao :=
    fun r hr => (hs.safe hv hd hr).main hr (hs.copies hsz hw hv hr) c.collective (hobj r hr)
  have : Nonempty (RemapObj α PackPlan2) := ⟨⟨[], [], 0, 0, false, none, none, none, 0, 0⟩⟩
  choose! obj32 h1 h2 h3 h4 h5 h6 h7 h8 h9 h10 using h
  exact ⟨obj32, h1, fun r hr => ⟨h2 r hr, h3 r hr, h4 r hr, h5 r hr, h6 r hr, h7 r hr, h8 r hr, h9 r hr,
    h10 r hr _ _ _ _⟩⟩

/-- Consequence: the 2d remap with 32-bit arithmetic delivers the data, under every schedule. -/
theorem C48_remap2d_delivers_partial (e : Bool) {sz : Int} (hsz : 1 ≤ sz) {P : Nat} (c : Call2)
    (hw : 8 = c.w * sz) (hv : c.Valid P) (hd : Disjoint2 P c.outs) (hs : c.Small P)
    (obj : Nat → RemapObj α PackPlan2) (hobj : c.Setup32 sz P obj)
    (m : Nat → LMem α) (hm : c.Fits P obj m) :
    ∃ m', Terminates e P (c.prog32 obj) m m' ∧ c.Post P (fun r => (m r).ub) (fun r => (m' r).ub) := by
  obtain ⟨o, ho⟩ := setup2_exists (α := α) P c hv.nqty hv.permute hv.packflag
  obtain ⟨o32, h1, h2⟩ := C48_remap2d_partial hsz c hw hv hd hs o ho
  have heq : ∀ r < P, o32 r = obj r := fun r hr => Option.some_inj.mp ((h1 r hr).symm.trans (hobj r hr))
  have hm' : c.Fits P o m := by
    refine ⟨hm.inp, hm.out, fun r hr => ?_, fun r hr => ?_⟩
    · rw [← (h2 r hr).2.2.2.2.2.2.1, heq r hr]; exact hm.sb r hr
    · rw [← (h2 r hr).2.2.2.2.2.2.2.1, heq r hr]; exact hm.rb r hr
  obtain ⟨m', h3, h4, -⟩ := remap2_main e hv ho hm'
  refine ⟨m', ?_, h4⟩
  refine h3.terminates.congr fun r hr => ?_
  rw [← (h2 r hr).2.2.2.2.2.2.2.2]
  unfold Call2.prog32
  rw [heq r hr]

/-- The hypotheses are met: the example of C39. -/
example (p f : Int) (coll : Bool) (ai ao : Nat) : (demo2 p f coll ai ao).Small 2 := by
  constructor
  · decide
  · intro r hr; constructor <;> constructor <;> simp only [demo2] <;> omega
  all_goals
    intros
    norm_num [demo2, Box2.isize, Box2.jsize, int32Max]

/-- **C48 is false in 2d as well**: box of 1 x (2^31-1) points, `permute = 1`, array packing. -/
theorem C48_unpack2_false :
    let b : Box2 := ⟨0, 0, 0, 2147483646⟩
    1 * (b.isize * b.jsize) ≤ int32Max ∧
    (remapSetup32 (dim2_32 8 : Dim32 α Box2 PackPlan2) 1 0 (fun _ => b) (fun _ => b) 1 1 0 false).isSome ∧
    ∃ p : PackPlan2, recvPlan2_32 1 1 b b = some p ∧
      unpackSel2_32 (α := α) 8 0 1 1 = some unpack_2d_permute_1_array32 ∧
      ∀ (buf data : Mem α) (x y : Int), unpack_2d_permute_1_array32 buf x data y p = none := by
  refine ⟨by decide, rfl, ⟨1, 2147483647, 2147483647, 1⟩, by decide, rfl, ?_⟩
  intro buf data x y
  unfold unpack_2d_permute_1_array32
  rw [Option.map_eq_none_iff]
  refine forN_second_none (by decide) _ ?_
  rintro ⟨c, M⟩ _
  rw [Option.map_eq_none_iff]
  unfold row32
  simp only [forN_one]
  rw [show add32 1 2147483647 = none by decide]
  cases copy1 buf M (y + 1) (x + c) <;> rfl

end FftMpi
