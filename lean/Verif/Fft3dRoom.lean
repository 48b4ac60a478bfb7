import Verif.Fft3dSizes
import Verif.PropsTightRemap

/-!
# The buffer sizes of the remaps of a plan, and the room needed for the remap whose sizes `setup` leaves out
-/

noncomputable section

namespace FftMpi

/-- The call made with the remap objects of a plan. -/
theorem mkRemap_call {c : Create} (hst : c.st.Valid) (inst : Nat) (coll : Bool) {ins outs bs : Nat → Box3} {p q : Int}
    (hq : q = 0 ∨ q = 1 ∨ q = 2) (hins : ∀ r, ins r = rotBox p (bs r)) (hd : Disjoint3 c.P bs) (ai ao : Nat) :
    ({ ins, outs, nqty := 2, permute := q, packflag := c.st.packflag, collective := coll, inst, ai, ao } : Call3).Valid c.P ∧
    ({ ins, outs, nqty := 2, permute := q, packflag := c.st.packflag, collective := coll, inst, ai, ao } : Call3).Setup c.P
      (fun r => (mkRemap (α := ℝ) (c.on r) inst coll ins outs q).obj) := by
  have ei : ins = fun r => rotBox p (bs r) := funext hins
  refine ⟨⟨?_, (by decide : (1 : Int) ≤ 2), hq, hst⟩, ?_⟩
  · change Disjoint3 c.P ins
    rw [ei]; exact rotBox_disjoint p hd
  · intro r hr
    obtain ⟨o, ho⟩ := remapSetup3_some (α := ℝ) hst hr coll ins outs hq
    change remapSetup dim3 c.P r ins outs 2 q c.st.packflag coll =
      some ((remapSetup dim3 c.P r ins outs 2 q c.st.packflag coll).getD dummyObj)
    rw [ho]; rfl

/-- The sum of the overlaps of a box with the boxes of a tiling. -/
theorem sum_overlaps {P : Nat} {b : Box3} {bs : Nat → Box3} (hd : Disjoint3 P bs)
    (hc : ∀ i j k, b.Has i j k → ∃ p < P, (bs p).Has i j k) :
    ((List.range P).map fun p => (inter3 b (bs p)).count).sum = b.count := by
  have e : ∀ p, (inter3 b (bs p)).count = (((b.pts ∩ (bs p).pts).card : Nat) : Int) := by
    intro p
    rw [← Box3.card_pts]
    congr 2
    ext x
    rw [Finset.mem_inter, Box3.mem_pts, Box3.mem_pts, Box3.mem_pts, inter3_has]
  have e1 : ((List.range P).map fun p => (inter3 b (bs p)).count).sum =
      allSum P fun p => (((b.pts ∩ (bs p).pts).card : Nat) : Int) := by
    unfold allSum
    congr 1
    exact List.map_congr_left fun p _ => e p
  rw [e1, allSum_eq, ← Nat.cast_sum, ← Finset.card_biUnion, ← Box3.card_pts]
  · congr 2
    ext x
    simp only [Finset.mem_biUnion, Finset.mem_inter, Finset.mem_range]
    constructor
    · rintro ⟨_, _, h, _⟩; exact h
    · intro h
      obtain ⟨p, hp, hh⟩ := hc _ _ _ ((Box3.mem_pts b x).mp h)
      exact ⟨p, hp, h, (Box3.mem_pts _ x).mpr hh⟩
  · intro a ha c hc' hac
    rw [Function.onFun, Finset.disjoint_left]
    intro x hx hy
    rw [Finset.mem_inter, Box3.mem_pts, Box3.mem_pts] at hx hy
    exact hac (hd a (by simpa using ha) c (by simpa using hc') _ _ _ hx.2 hy.2)

theorem rotBox_inter (p : Int) (b b' : Box3) : inter3 (rotBox p b) (rotBox p b') = rotBox p (inter3 b b') := by
  unfold rotBox inter3
  split_ifs <;> rfl

/-- **The sizes of one remap of a plan** from layout `bs` to layout `bs'`: in collective mode all data of a rank pass through
the buffers, else one message at a time is sent. -/
theorem plan_sizes {c : Create} (hst : c.st.Valid) (inst : Nat) (coll : Bool) {ins outs bs bs' : Nat → Box3} {p q : Int}
    (hq : q = 0 ∨ q = 1 ∨ q = 2) (hins : ∀ r, ins r = rotBox p (bs r)) (houts : ∀ r, outs r = rotBox p (bs' r))
    {n1 n2 n3 : Int} (T : Tiles3 c.P bs n1 n2 n3) (T' : Tiles3 c.P bs' n1 n2 n3) (hp : ∀ r < c.P, (bs' r).Proper) {r : Nat}
    (hr : r < c.P) :
    (mkRemap (α := ℝ) (c.on r) inst coll ins outs q).obj.recvsize = 2 * (bs' r).count ∧
    (coll = true → (mkRemap (α := ℝ) (c.on r) inst coll ins outs q).obj.sendsize = 2 * (bs r).count) ∧
    (coll = false → (∀ p < c.P, p ≠ r →
        2 * (inter3 (bs r) (bs' p)).count ≤ (mkRemap (α := ℝ) (c.on r) inst coll ins outs q).obj.sendsize) ∧
      ((mkRemap (α := ℝ) (c.on r) inst coll ins outs q).obj.sendsize = 0 ∨ ∃ p < c.P, p ≠ r ∧
        (mkRemap (α := ℝ) (c.on r) inst coll ins outs q).obj.sendsize = 2 * (inter3 (bs r) (bs' p)).count)) := by
  obtain ⟨hv, hs⟩ := mkRemap_call hst inst coll (outs := outs) hq hins T.disjoint 0 0
  obtain ⟨h1, h2⟩ := C75_sizes3 hv hs hr
  dsimp only at h1 h2
  have ei : ∀ a b, (inter3 (ins a) (outs b)).count = (inter3 (bs a) (bs' b)).count := by
    intro a b
    rw [hins, houts, rotBox_inter, rotBox_count]
  have hsz : ∀ r < c.P, 2 * (outs r).isize * (outs r).jsize * (outs r).ksize = 2 * (bs' r).count := by
    intro r hr
    rw [← rotBox_count p, ← houts, ← vol_eq_count (by rw [houts]; exact rotBox_proper (hp r hr))]
    unfold Box3.vol
    ring
  simp only [ei] at h1 h2
  refine ⟨?_, fun hc => ?_, fun hc => ?_⟩
  · cases coll with
    | true =>
      rw [(h1 rfl).2]
      congr 1
      simp only [inter3_comm _ (bs' r)]
      refine sum_overlaps T.disjoint fun i j k h => ?_
      have hin := T'.inside r hr i j k h
      exact T.owner i j k hin.1 hin.2.1 hin.2.2
    | false => rw [(h2 rfl).2.2, hsz r hr]
  · rw [(h1 hc).1]
    congr 1
    refine sum_overlaps T'.disjoint fun i j k h => ?_
    have hin := T.inside r hr i j k h
    exact T'.owner i j k hin.1 hin.2.1 hin.2.2
  · exact ⟨(h2 hc).1, (h2 hc).2.1⟩

/-- The buffers of rank `r` have room for the second remap of `remap_midfast`, from bricks to fast pencils: the receive buffer
for the rank's part of the pencils; the send buffer in collective mode for the brick, otherwise for its largest part that goes
to another rank. -/
def ExtraRoom (P : Nat) (a : Args3) (st : Settings) (g : Grids) (m : Nat → LMem ℝ) (r : Nat) : Prop :=
  accessible (m r).rb 0 (2 * (fastBox P a g r).count) ∧
  (collectiveBp st.collective = true → accessible (m r).sb 0 (2 * (brickBox a g r).count)) ∧
  (collectiveBp st.collective = false →
    ∀ p < P, p ≠ r → accessible (m r).sb 0 (2 * (inter3 (brickBox a g r) (fastBox P a g p)).count))

theorem Ready.extraRoom {c : Create} {f : Nat → Fft3 ℝ} (R : Ready c f) (h : c.st.exchange ≠ 0) {m : Nat → LMem ℝ} {r : Nat}
    (hr : r < c.P) : ExtraRoom c.P c.a c.st c.g m r ↔
      accessible (m r).sb 0 ((c.on r).midfastR2 (α := ℝ)).obj.sendsize ∧
      accessible (m r).rb 0 ((c.on r).midfastR2 (α := ℝ)).obj.recvsize := by
  obtain ⟨h1, h2, h3⟩ := plan_sizes (c := c) (p := 1) R.st 10 c.bp (ins := fun r => jki (c.brick r))
    (outs := fun r => jki (c.fast r)) Ready.two_ok (fun _ => rfl) (fun _ => rfl) (R.brick_tiles h) R.fast_tiles
    (fun _ hr => R.fast_proper hr) hr
  change ((c.on r).midfastR2 (α := ℝ)).obj.recvsize = _ at h1
  unfold ExtraRoom
  rw [h1, and_comm]
  refine and_congr ?_ Iff.rfl
  change (c.bp = true → _) ∧ (c.bp = false → _) ↔ _
  cases hb : c.bp with
  | true =>
    have h2 : ((c.on r).midfastR2 (α := ℝ)).obj.sendsize = _ := h2 hb
    rw [h2]
    exact ⟨fun h => h.1 rfl, fun h => ⟨fun _ => h, fun h => by cases h⟩⟩
  | false =>
    obtain ⟨h4, h5⟩ := h3 hb
    change ∀ p < c.P, p ≠ r → _ ≤ ((c.on r).midfastR2 (α := ℝ)).obj.sendsize at h4
    change ((c.on r).midfastR2 (α := ℝ)).obj.sendsize = 0 ∨ ∃ p < c.P, p ≠ r ∧
      ((c.on r).midfastR2 (α := ℝ)).obj.sendsize = _ at h5
    constructor
    · intro h
      rcases h5 with h5 | ⟨p, hp, hne, h5⟩
      · rw [h5]; intro x h0 h1; omega
      · rw [h5]; exact h.2 rfl p hp hne
    · intro h
      exact ⟨fun h' => (by cases h'), fun _ p hp hne => accessible_mono h (h4 p hp hne)⟩

/-- The same object with larger values of `sendsize` and `recvsize`. -/
def Fft3.atLeast (f : Fft3 ℝ) (s t : Int) : Fft3 ℝ :=
  { f with sendsize := max f.sendsize s, recvsize := max f.recvsize t }

theorem Ready.atLeast {c : Create} {f : Nat → Fft3 ℝ} (R : Ready c f) (s t : Nat → Int) :
    Ready c fun r => (f r).atLeast (s r) (t r) :=
  { args := R.args, st := R.st, made := R.made, grids := R.grids, same := R.same, prefast := R.prefast, fastmid := R.fastmid
    midslow := R.midslow, postslow := R.postslow, preslow := R.preslow, slowmid := R.slowmid
    midfast := R.midfast, postfast := R.postfast, insize := R.insize, outsize := R.outsize
    fftsize := R.fftsize, norm := R.norm, normnum := R.normnum
    planFast := R.planFast, planMid := R.planMid, planSlow := R.planSlow
    fwd := fun r hr x hx => ⟨le_trans (R.fwd r hr x hx).1 (le_max_left _ _),
      le_trans (R.fwd r hr x hx).2 (le_max_left _ _)⟩
    inv := fun hs r hr x hx => ⟨le_trans (R.inv hs r hr x hx).1 (le_max_left _ _),
      le_trans (R.inv hs r hr x hx).2 (le_max_left _ _)⟩ }

end FftMpi
