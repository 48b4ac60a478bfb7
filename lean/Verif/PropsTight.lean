import Verif.TightFft3d
import Verif.TightFft2d
import Verif.PropsFft3dBad

/-!
# Property C75, FFT3d and FFT2d: the buffer sizes are needed, and what is missing

`setup` returns `sendsize` and `recvsize`.  Here: exactly which buffers `compute` needs to end without undefined
behaviour in both directions.  All of the returned sizes are needed, and apart from the second remap of `remap_midfast`
(whose sizes fft3d.cpp:1368-1375 leaves out, see C25) nothing else.
-/

noncomputable section

namespace FftMpi

theorem SetUp3.ready_sizes {P : Nat} {a : Args3} {st : Settings} {f : Nat → Fft3 ℝ} (S : SetUp3 P a st f) {g : Grids}
    (hg : setupGrids P a st.exchange = some g) :
    Ready ⟨P, 0, a, st, g⟩ f ∧ ∀ r < P,
      (f r).sendsize = (((⟨P, r, a, st, g⟩ : Create).fwdSizes (α := ℝ) ++
        if inoutSame P a then [] else (⟨P, r, a, st, g⟩ : Create).invSizes).foldl bump (0, 0)).1 ∧
      (f r).recvsize = (((⟨P, r, a, st, g⟩ : Create).fwdSizes (α := ℝ) ++
        if inoutSame P a then [] else (⟨P, r, a, st, g⟩ : Create).invSizes).foldl bump (0, 0)).2 := by
  obtain ⟨g', hg', hgo⟩ := setupGrids_ok S.args.round S.args.procs S.args.fast S.args.mid S.args.slow st.exchange
  rw [hg] at hg'
  obtain rfl := Option.some.inj hg'
  have hm : ∀ r < P, setupMain (α := ℝ) ⟨P, r, a, st, g⟩ = some (f r) := by
    intro r hr
    have h := S.result r hr
    unfold fft3Setup at h
    rw [S.args.check] at h
    simp only [hg, Option.bind_eq_bind, Option.bind_some] at h
    cases hm : setupMain (α := ℝ) { P := P, me := r, a := a, st := st, g := g } with
    | none => rw [hm] at h; simp at h
    | some x =>
      rw [hm] at h
      simp only [Option.bind_some, Option.some.injEq, Except.ok.injEq] at h
      rw [h]
  refine ⟨ready_of_main (c := ⟨P, 0, a, st, g⟩) S.args S.settings hg hgo hm, fun r hr => ?_⟩
  obtain ⟨_, _, _, _, h2⟩ := setupMain_eq (α := ℝ) (c := ⟨P, r, a, st, g⟩) S.settings hr S.args
  rw [hm r hr] at h2
  rw [Option.some.inj h2]
  exact ⟨rfl, rfl⟩

theorem accessible_bump {m m' : Mem ℝ} {l : List (Remap3 ℝ)} {s : Int × Int} (h1 : accessible m 0 s.1)
    (h2 : accessible m' 0 s.2)
    (h : ∀ x ∈ l, accessible m 0 x.obj.sendsize ∧ accessible m' 0 x.obj.recvsize) :
    accessible m 0 (l.foldl bump s).1 ∧ accessible m' 0 (l.foldl bump s).2 := by
  have hmax : ∀ {m : Mem ℝ} {x y : Int}, accessible m 0 x → accessible m 0 y → accessible m 0 (max x y) := by
    intro m x y hx hy
    rcases max_choice x y with h | h <;> rw [h] <;> assumption
  induction l generalizing s with
  | nil => exact ⟨h1, h2⟩
  | cons x l ih =>
    have hx := h x (List.mem_cons_self ..)
    exact ih (hmax h1 hx.1) (hmax h2 hx.2) fun y hy => h y (List.mem_cons_of_mem _ hy)

/-- With the returned sizes and the extra room a backward `compute` ends. -/
theorem Ready.back_any {c : Create} {f : Nat → Fft3 ℝ} (R : Ready c f) (e : Bool) (J : Nat → Nat → Junk)
    (scaled remaponly : Bool) (flag : Int) (ai ao : Nat) {m : Nat → LMem ℝ} (hbi : Bufs c.P f ai m) (hb : Bufs c.P f ao m)
    (hx : c.st.exchange = 0 ∨ inoutSame c.P c.a = true ∨ ∀ r < c.P, ExtraRoom c.P c.a c.st c.g m r) :
    ∃ m', Terminates e c.P (fun r => (f r).compute (J r) scaled remaponly flag ai ao) m m' := by
  have hmax : ∀ {m : Mem ℝ} {x y : Int}, accessible m 0 x → accessible m 0 y → accessible m 0 (max x y) := by
    intro m x y hx hy
    rcases max_choice x y with h | h <;> rw [h] <;> assumption
  by_cases h0 : c.st.exchange = 0
  · obtain ⟨m', s⟩ := R.any flag (fun _ _ h => absurd h0 h) e J scaled remaponly ai ao hbi hb
    exact ⟨m', s.ok.terminates⟩
  by_cases hs : inoutSame c.P c.a = true
  · obtain ⟨m', s⟩ := R.any flag (fun _ h => by rw [hs] at h; cases h) e J scaled remaponly ai ao hbi hb
    exact ⟨m', s.ok.terminates⟩
  have hx := (hx.resolve_left h0).resolve_left hs
  let s : Nat → Int := fun r => ((c.on r).midfastR2 (α := ℝ)).obj.sendsize
  let t : Nat → Int := fun r => ((c.on r).midfastR2 (α := ℝ)).obj.recvsize
  have hB : ∀ n, Bufs c.P f n m → Bufs c.P (fun r => (f r).atLeast (s r) (t r)) n m := fun n h =>
    { data := h.data
      sb := fun r hr => hmax (h.sb r hr) ((R.extraRoom h0 hr).mp (hx r hr)).1
      rb := fun r hr => hmax (h.rb r hr) ((R.extraRoom h0 hr).mp (hx r hr)).2 }
  obtain ⟨m', s⟩ := (R.atLeast s t).any flag (fun _ _ _ r _ => ⟨le_max_right _ _, le_max_right _ _⟩) e J scaled remaponly ai ao
    (hB ai hbi) (hB ao hb)
  exact ⟨m', s.ok.terminates⟩

/-- **C75, FFT3d.**  For valid arguments, any settings and arrays of `fftsize` complex numbers with any contents: `compute`
ends in all interleavings, without undefined behaviour and without deadlock, in both directions, if and only if on all ranks
the buffers have the returned sizes and - unless `exchange` is 0 or input and output layout are the same - room for the second
remap of `remap_midfast`. -/
theorem C75_fft3d {P : Nat} {a : Args3} {st : Settings} {f : Nat → Fft3 ℝ} (S : SetUp3 P a st f) {g : Grids}
    (hg : setupGrids P a st.exchange = some g) (e : Bool) (J : Nat → Nat → Junk) (scaled remaponly : Bool) {ai ao : Nat}
    {m : Nat → LMem ℝ} (hi : ∀ r < P, accessible ((m r).ub ai) 0 (2 * (f r).fftsize))
    (ho : ∀ r < P, accessible ((m r).ub ao) 0 (2 * (f r).fftsize)) :
    ((∃ m', Terminates e P (fun r => (f r).compute (J r) scaled remaponly 1 ai ao) m m') ∧
      (∃ m', Terminates e P (fun r => (f r).compute (J r) scaled remaponly (-1) ai ao) m m')) ↔
    (∀ r < P, accessible (m r).sb 0 (f r).sendsize ∧ accessible (m r).rb 0 (f r).recvsize) ∧
      (st.exchange = 0 ∨ (a.permute = 0 ∧ ∀ r < P, a.ins r = a.outs r) ∨ ∀ r < P, ExtraRoom P a st g m r) := by
  obtain ⟨R, hsz⟩ := S.ready_sizes hg
  have hsame : inoutSame P a = true ↔ (a.permute = 0 ∧ ∀ r < P, a.ins r = a.outs r) :=
    ⟨fun h => R.same_layout h, fun h => inoutSame_of h.1 h.2⟩
  rw [← hsame]
  constructor
  · rintro ⟨⟨m1, h1⟩, m2, h2⟩
    have hf : ∀ r < P, ∀ x ∈ (⟨P, r, a, st, g⟩ : Create).fwdSizes (α := ℝ),
        accessible (m r).sb 0 x.obj.sendsize ∧ accessible (m r).rb 0 x.obj.recvsize := by
      intro r hr x hx
      have hu := R.uses_fwd (flag := 1) (Or.inl rfl) hr
      exact compute_needs hr (fun y hy => R.fwd_tight hr y ((hu y).mp hy)) h1 ((hu x).mpr hx)
    have hb : inoutSame P a = false → ∀ r < P, ∀ x : Remap3 ℝ, (x ∈ (⟨P, r, a, st, g⟩ : Create).invSizes (α := ℝ) ∨
          (st.exchange ≠ 0 ∧ x = (⟨P, r, a, st, g⟩ : Create).midfastR2)) →
        accessible (m r).sb 0 x.obj.sendsize ∧ accessible (m r).rb 0 x.obj.recvsize := by
      intro hs r hr x hx
      have hu := R.uses_inv (flag := -1) (by decide) hs hr
      refine compute_needs hr (fun y hy => ?_) h2 ((hu x).mpr hx)
      rcases (hu y).mp hy with h | ⟨h, rfl⟩
      · exact R.inv_tight hr y h
      · exact R.extra_tight h hr
    refine ⟨fun r hr => ?_, ?_⟩
    · rw [(hsz r hr).1, (hsz r hr).2]
      have z : ∀ m : Mem ℝ, accessible m 0 0 := by intro m x h0 h1; omega
      refine accessible_bump (z _) (z _) fun x hx => ?_
      rw [List.mem_append] at hx
      rcases hx with hx | hx
      · exact hf r hr x hx
      · cases hs : inoutSame P a with
        | true => rw [hs] at hx; cases hx
        | false =>
          rw [hs, if_neg Bool.false_ne_true] at hx
          exact hb hs r hr x (Or.inl hx)
    · by_cases h0 : st.exchange = 0
      · exact Or.inl h0
      · right
        cases hs : inoutSame P a with
        | true => exact Or.inl rfl
        | false => exact Or.inr fun r hr => (R.extraRoom h0 hr).mpr (hb hs r hr _ (Or.inr ⟨h0, rfl⟩))
  · rintro ⟨hB, hx⟩
    have hbi : Bufs P f ai m := ⟨hi, fun r hr => (hB r hr).1, fun r hr => (hB r hr).2⟩
    have hbo : Bufs P f ao m := ⟨ho, fun r hr => (hB r hr).1, fun r hr => (hB r hr).2⟩
    refine ⟨?_, R.back_any e J scaled remaponly (-1) ai ao hbi hbo hx⟩
    obtain ⟨m', s⟩ := R.any 1 (fun h => absurd rfl h) e J scaled remaponly ai ao hbi hbo
    exact ⟨m', s.ok.terminates⟩

/-- **C25, exactly.**  With buffers of the returned sizes a backward `compute` ends without undefined behaviour if and only if
`exchange` is 0, or input and output layout are the same, or on all ranks the buffers also have room for the second remap of
`remap_midfast`. -/
theorem C25_exact {P : Nat} {a : Args3} {st : Settings} {f : Nat → Fft3 ℝ} (S : SetUp3 P a st f) {g : Grids}
    (hg : setupGrids P a st.exchange = some g) (e : Bool) (J : Nat → Nat → Junk) (scaled remaponly : Bool) {ai ao : Nat}
    {m : Nat → LMem ℝ} (hbi : Bufs P f ai m) (hbo : Bufs P f ao m) :
    (∃ m', Terminates e P (fun r => (f r).compute (J r) scaled remaponly (-1) ai ao) m m') ↔
      (st.exchange = 0 ∨ (a.permute = 0 ∧ ∀ r < P, a.ins r = a.outs r) ∨ ∀ r < P, ExtraRoom P a st g m r) := by
  have h := C75_fft3d S hg e J scaled remaponly hbi.data hbo.data
  have hf := (C25_buffers_partial S e J scaled remaponly 1 0 (Or.inl rfl) hbi hbo).1
  have hB : ∀ r < P, accessible (m r).sb 0 (f r).sendsize ∧ accessible (m r).rb 0 (f r).recvsize :=
    fun r hr => ⟨hbo.sb r hr, hbo.rb r hr⟩
  constructor
  · intro hb
    exact (h.mp ⟨hf, hb⟩).2
  · intro hx
    exact (h.mpr ⟨hB, hx⟩).2

/-- The hypothesis `RoomBack` of the theorems on backward transforms is exactly what they need: with buffers of the returned
sizes a backward `compute` ends without undefined behaviour if and only if it holds. -/
theorem C25_room_iff {P : Nat} {a : Args3} {st : Settings} {f : Nat → Fft3 ℝ} (S : SetUp3 P a st f) (e : Bool)
    (J : Nat → Nat → Junk) (scaled remaponly : Bool) {ai ao : Nat} {m : Nat → LMem ℝ} (hbi : Bufs P f ai m)
    (hbo : Bufs P f ao m) :
    (∃ m', Terminates e P (fun r => (f r).compute (J r) scaled remaponly (-1) ai ao) m m') ↔ RoomBack P a st m := by
  obtain ⟨c, rfl, rfl, rfl, hg, _⟩ := S.ready
  rw [C25_exact S hg e J scaled remaponly hbi hbo]
  constructor
  · rintro (h | h | h)
    · exact Or.inl h
    · exact Or.inr (Or.inl h)
    · exact Or.inr (Or.inr ⟨_, hg, h⟩)
  · rintro (h | h | ⟨g, hg', h⟩)
    · exact Or.inl h
    · exact Or.inr (Or.inl h)
    · rw [hg] at hg'
      cases hg'
      exact Or.inr (Or.inr h)

/-- The condition of the example of `C25_false` (grid 4 x 2 x 2, rank 0 owns the input): rank 1 has to send its brick of 8
points to rank 0, which receives 16 points. -/
theorem bufExtra (m : Nat → LMem ℝ) :
    (∀ r < 2, ExtraRoom 2 bufArgs ⟨0, 1, 0⟩ ⟨(1, 1, 2), (2, 1, 1), (2, 1, 1), (2, 1, 1)⟩ m r) ↔
      accessible (m 1).sb 0 16 ∧ accessible (m 0).rb 0 32 := by
  have f0 : (fastBox 2 bufArgs ⟨(1, 1, 2), (2, 1, 1), (2, 1, 1), (2, 1, 1)⟩ 0).count = 16 := by decide +kernel
  have f1 : (fastBox 2 bufArgs ⟨(1, 1, 2), (2, 1, 1), (2, 1, 1), (2, 1, 1)⟩ 1).count = 0 := by decide +kernel
  have i01 : (inter3 (brickBox bufArgs ⟨(1, 1, 2), (2, 1, 1), (2, 1, 1), (2, 1, 1)⟩ 0)
    (fastBox 2 bufArgs ⟨(1, 1, 2), (2, 1, 1), (2, 1, 1), (2, 1, 1)⟩ 1)).count = 0 := by decide +kernel
  have i10 : (inter3 (brickBox bufArgs ⟨(1, 1, 2), (2, 1, 1), (2, 1, 1), (2, 1, 1)⟩ 1)
    (fastBox 2 bufArgs ⟨(1, 1, 2), (2, 1, 1), (2, 1, 1), (2, 1, 1)⟩ 0)).count = 8 := by decide +kernel
  have z : ∀ m : Mem ℝ, accessible m 0 (2 * 0) := by intro m x h0 h1; omega
  have hb : collectiveBp (⟨0, 1, 0⟩ : Settings).collective = false := by decide
  constructor
  · intro h
    have h0 := (h 0 (by decide)).1
    have h1 := (h 1 (by decide)).2.2 hb 0 (by decide) (by decide)
    rw [f0] at h0
    rw [i10] at h1
    exact ⟨h1, h0⟩
  · rintro ⟨h1, h0⟩ r hr
    have hr' : r = 0 ∨ r = 1 := by omega
    rcases hr' with rfl | rfl
    · refine ⟨by rw [f0]; exact h0, fun h => (by rw [hb] at h; cases h), fun _ p hp hne => ?_⟩
      obtain rfl : p = 1 := by omega
      rw [i01]; exact z _
    · refine ⟨by rw [f1]; exact z _, fun h => (by rw [hb] at h; cases h), fun _ p hp hne => ?_⟩
      obtain rfl : p = 0 := by omega
      rw [i10]; exact h1

/-- Example: for `bufArgs` a backward transform with buffers of the returned sizes (0 for sending on rank 1) ends if and only
if rank 1 can send 16 numbers and rank 0 receive 32. -/
example : ∃ f, SetUp3 2 bufArgs ⟨0, 1, 0⟩ f ∧ (f 1).sendsize = 0 ∧ ∀ (e : Bool) (J : Nat → Nat → Junk)
    (scaled remaponly : Bool) (n : Nat) (m : Nat → LMem ℝ), Bufs 2 f n m →
    ((∃ m', Terminates e 2 (fun r => (f r).compute (J r) scaled remaponly (-1) n n) m m') ↔
      accessible (m 1).sb 0 16 ∧ accessible (m 0).rb 0 32) := by
  obtain ⟨f, S⟩ := setUp3_exists (st := ⟨0, 1, 0⟩) bufArgs_valid (Or.inl rfl)
  refine ⟨f, S, (bufSizes S).1, fun e J scaled remaponly n m hb => ?_⟩
  rw [C25_exact S bufGrids e J scaled remaponly hb hb, ← bufExtra]
  constructor
  · rintro (h | h | h)
    · exact absurd h (by decide)
    · exact absurd h.1 (by decide)
    · exact h
  · exact fun h => Or.inr (Or.inr h)

/-- Example for `C75_fft3d`: for `bufArgs` the returned receive size of rank 1 is 16.  With a buffer of only 15 numbers one of
the two directions fails, however large the other buffers are. -/
example : ∃ f, SetUp3 2 bufArgs ⟨0, 1, 0⟩ f ∧ (f 1).recvsize = 16 ∧ ∀ (e : Bool) (J : Nat → Nat → Junk)
    (scaled remaponly : Bool) (m : Nat → LMem ℝ), (∀ r < 2, accessible ((m r).ub 0) 0 (2 * (f r).fftsize)) →
    (m 1).rb 15 = none →
    ¬ ((∃ m', Terminates e 2 (fun r => (f r).compute (J r) scaled remaponly 1 0 0) m m') ∧
      (∃ m', Terminates e 2 (fun r => (f r).compute (J r) scaled remaponly (-1) 0 0) m m')) := by
  obtain ⟨f, S⟩ := setUp3_exists (st := ⟨0, 1, 0⟩) bufArgs_valid (Or.inl rfl)
  refine ⟨f, S, (bufSizes S).2, fun e J scaled remaponly m hm hn hT => ?_⟩
  have h := (((C75_fft3d S bufGrids e J scaled remaponly hm hm).mp hT).1 1 (by decide)).2 15 (by decide)
    (by rw [(bufSizes S).2]; decide)
  rw [hn] at h
  cases h

/-! ## 2d -/

theorem SetUp2.ready_sizes {w : Int} {P : Nat} {a : Args2} {st : Settings} {f : Nat → Fft2 ℝ} (S : SetUp2 w P a st f) :
    ∃ g, setupBrick2 P a st.exchange = some g ∧ Ready2 ⟨w, P, 0, a, st, g⟩ f ∧ ∀ r < P,
      (f r).sendsize = (((⟨w, P, r, a, st, g⟩ : Create2).fwdSizes (α := ℝ) ++
        if inoutSame2 P a then [] else (⟨w, P, r, a, st, g⟩ : Create2).invSizes).foldl bump2 (0, 0)).1 ∧
      (f r).recvsize = (((⟨w, P, r, a, st, g⟩ : Create2).fwdSizes (α := ℝ) ++
        if inoutSame2 P a then [] else (⟨w, P, r, a, st, g⟩ : Create2).invSizes).foldl bump2 (0, 0)).2 := by
  obtain ⟨g, hg, hgo⟩ := setupBrick2_ok S.args.round S.args.procs S.args.fast S.args.slow st.exchange
  have hm : ∀ r < P, setupMain2 (α := ℝ) ⟨w, P, r, a, st, g⟩ = some (f r) := by
    intro r hr
    have h := S.result r hr
    unfold fft2Setup at h
    rw [S.args.check] at h
    simp only [hg, Option.bind_eq_bind, Option.bind_some] at h
    cases hm : setupMain2 (α := ℝ) { w := w, P := P, me := r, a := a, st := st, g := g } with
    | none => rw [hm] at h; simp at h
    | some x =>
      rw [hm] at h
      simp only [Option.bind_some, Option.some.injEq, Except.ok.injEq] at h
      rw [h]
  refine ⟨g, hg, ready2_of_main (c := ⟨w, P, 0, a, st, g⟩) S.args S.settings hgo hm, fun r hr => ?_⟩
  obtain ⟨_, _, _, h2⟩ := setupMain2_eq (α := ℝ) (c := ⟨w, P, r, a, st, g⟩) S.settings hr S.args.fast S.args.slow
    S.args.permute
  rw [hm r hr] at h2
  rw [Option.some.inj h2]
  exact ⟨rfl, rfl⟩

theorem accessible_bump2 {m m' : Mem ℝ} {l : List (Remap2 ℝ)} {s : Int × Int} (h1 : accessible m 0 s.1)
    (h2 : accessible m' 0 s.2)
    (h : ∀ x ∈ l, accessible m 0 x.obj.sendsize ∧ accessible m' 0 x.obj.recvsize) :
    accessible m 0 (l.foldl bump2 s).1 ∧ accessible m' 0 (l.foldl bump2 s).2 := by
  have hmax : ∀ {m : Mem ℝ} {x y : Int}, accessible m 0 x → accessible m 0 y → accessible m 0 (max x y) := by
    intro m x y hx hy
    rcases max_choice x y with h | h <;> rw [h] <;> assumption
  induction l generalizing s with
  | nil => exact ⟨h1, h2⟩
  | cons x l ih =>
    have hx := h x (List.mem_cons_self ..)
    exact ih (hmax h1 hx.1) (hmax h2 hx.2) fun y hy => h y (List.mem_cons_of_mem _ hy)

/-- **C75, FFT2d.**  For valid arguments, any settings and arrays of `fftsize` complex numbers with any contents: `compute`
ends in all interleavings, without undefined behaviour and without deadlock, in both directions, if and only if on all ranks
the buffers have the returned sizes. -/
theorem C75_fft2d {w : Int} {P : Nat} {a : Args2} {st : Settings} {f : Nat → Fft2 ℝ} (S : SetUp2 w P a st f) (e : Bool)
    (J : Nat → Nat → Junk) (scaled remaponly : Bool) {ai ao : Nat}
    {m : Nat → LMem ℝ} (hi : ∀ r < P, accessible ((m r).ub ai) 0 (2 * (f r).fftsize))
    (ho : ∀ r < P, accessible ((m r).ub ao) 0 (2 * (f r).fftsize)) :
    ((∃ m', Terminates e P (fun r => (f r).compute (J r) scaled remaponly 1 ai ao) m m') ∧
      (∃ m', Terminates e P (fun r => (f r).compute (J r) scaled remaponly (-1) ai ao) m m')) ↔
    ∀ r < P, accessible (m r).sb 0 (f r).sendsize ∧ accessible (m r).rb 0 (f r).recvsize := by
  obtain ⟨g, hg, R, hsz⟩ := S.ready_sizes
  constructor
  · rintro ⟨⟨m1, h1⟩, m2, h2⟩ r hr
    rw [(hsz r hr).1, (hsz r hr).2]
    have z : ∀ m : Mem ℝ, accessible m 0 0 := by intro m x h0 h1; omega
    refine accessible_bump2 (z _) (z _) fun x hx => ?_
    rw [List.mem_append] at hx
    rcases hx with hx | hx
    · have hu := R.uses_fwd (flag := 1) (Or.inl rfl) hr
      exact compute2_needs hr (fun y hy => R.fwd_tight hr y ((hu y).mp hy)) h1 ((hu x).mpr hx)
    · cases hs : inoutSame2 P a with
      | true => rw [hs] at hx; cases hx
      | false =>
        rw [hs, if_neg Bool.false_ne_true] at hx
        have hu := R.uses_inv (flag := -1) (by decide) hs hr
        exact compute2_needs hr (fun y hy => R.inv_tight hr y ((hu y).mp hy)) h2 ((hu x).mpr hx)
  · intro hB
    have hbi : Bufs2 P f ai m := ⟨hi, fun r hr => (hB r hr).1, fun r hr => (hB r hr).2⟩
    have hbo : Bufs2 P f ao m := ⟨ho, fun r hr => (hB r hr).1, fun r hr => (hB r hr).2⟩
    obtain ⟨m1, s1⟩ := R.any 1 e J scaled remaponly ai ao hbi hbo
    obtain ⟨m2, s2⟩ := R.any (-1) e J scaled remaponly ai ao hbi hbo
    exact ⟨⟨m1, s1.ok.terminates⟩, m2, s2.ok.terminates⟩

/-- Example: with buffers of the returned sizes both directions end; with a receive buffer of one number less on rank 0 one
of them fails. -/
example : ∃ f, SetUp2 1 2 (plane2 1) ⟨2, 1, 2⟩ f ∧ ∀ (e : Bool) (J : Nat → Nat → Junk) (scaled remaponly : Bool)
    (X : Grid2), (∃ m : Nat → LMem ℝ, (∀ n, Holds2 2 0 (plane2 1).ins n X m) ∧
      (∃ m', Terminates e 2 (fun r => (f r).compute (J r) scaled remaponly 1 0 0) m m') ∧
      (∃ m', Terminates e 2 (fun r => (f r).compute (J r) scaled remaponly (-1) 0 0) m m')) ∧
    ∀ m : Nat → LMem ℝ, (∀ r < 2, accessible ((m r).ub 0) 0 (2 * (f r).fftsize)) → 0 < (f 0).recvsize →
      (m 0).rb ((f 0).recvsize - 1) = none →
      ¬ ((∃ m', Terminates e 2 (fun r => (f r).compute (J r) scaled remaponly 1 0 0) m m') ∧
        (∃ m', Terminates e 2 (fun r => (f r).compute (J r) scaled remaponly (-1) 0 0) m m')) := by
  obtain ⟨f, S⟩ := setUp2_exists (w := 1) (st := ⟨2, 1, 2⟩) (plane2_valid 1 (Or.inr rfl)) (Or.inr (Or.inr ⟨rfl, rfl⟩))
  refine ⟨f, S, fun e J scaled remaponly X => ⟨?_, fun m hm h0 hn hT => ?_⟩⟩
  · obtain ⟨m, hm⟩ := S.mem_in X
    refine ⟨m, fun n => (hm n).1, ?_⟩
    rw [C75_fft2d S e J scaled remaponly (hm 0).2.data (hm 0).2.data]
    exact fun r hr => ⟨(hm 0).2.sb r hr, (hm 0).2.rb r hr⟩
  · have h := (((C75_fft2d S e J scaled remaponly hm hm).mp hT) 0 (by decide)).2 ((f 0).recvsize - 1) (by omega) (by omega)
    rw [hn] at h
    cases h

end FftMpi
