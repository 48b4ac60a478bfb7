import Verif.PropsExact
import Verif.PropsFft2dUse
import Verif.PropsFft3dBad
import Verif.PropsFft2dMore
import Verif.PropsRemap3d
import Verif.PropsRemap2d

/-!
# C81: several objects used in turn

A program that uses the library makes calls of `compute` and `remap` on any number of objects, in any order, and works on its
arrays in between.  All ranks make the same calls in the same order.  The objects were set up on the same ranks.
-/

noncomputable section

namespace FftMpi

/-- One statement of the program of the user. -/
inductive Use where
  /-- `FFT3d::compute` with `in` array `k` and `out` array `n`, with `flag = 1`, or -1 if `back`; `J r` is the contents of
  fresh memory -/
  | fft3 (a : Args3) (st : Settings) (f : Nat → Fft3 ℝ) (J : Nat → Nat → Junk) (scaled remaponly back : Bool) (k n : Nat)
  /-- `FFT2d::compute` with `in` array `k` and `out` array `n` -/
  | fft2 (w : Int) (a : Args2) (st : Settings) (f : Nat → Fft2 ℝ) (J : Nat → Nat → Junk) (scaled remaponly back : Bool)
    (k n : Nat)
  /-- `Remap3d::remap` -/
  | remap3 (c : Call3) (obj : Nat → RemapObj ℝ PackPlan3)
  /-- `Remap2d::remap` -/
  | remap2 (c : Call2) (obj : Nat → RemapObj ℝ PackPlan2)
  /-- code of the user: array `n` of rank `r` becomes `g r` of it -/
  | code (n : Nat) (g : Nat → Mem ℝ → Mem ℝ)
  /-- the statement `u` with an object that has its own buffers: they are the arrays `s` and `t` -/
  | own (s t : Nat) (u : Use)

/-- The same memory, named as seen from an object whose buffers are the arrays `s` and `t`. -/
def LMem.withBufs (s t : Nat) (l : LMem ℝ) : LMem ℝ where
  ub := Function.update (Function.update l.ub s l.sb) t l.rb
  sb := l.ub s
  rb := l.ub t

namespace Use

/-- The argument `flag` of `compute`. -/
def flagOf (back : Bool) : Int := if back then -1 else 1

/-- What rank `r` does: `compute` is fft3d.cpp:560-605 and fft2d.cpp:526-565, `remap` remap3d.cpp:629-711 and
remap2d.cpp:582-664.  For an object with its own buffers `sendbuf` and `recvbuf` are other pointers; that is expressed by
renaming the memory during the call. -/
def prog : Use → Nat → List (Instr ℝ)
  | fft3 _ _ f J scaled remaponly back k n, r => (f r).compute (J r) scaled remaponly (flagOf back) k n
  | fft2 _ _ _ f J scaled remaponly back k n, r => (f r).compute (J r) scaled remaponly (flagOf back) k n
  | remap3 c obj, r => c.prog obj r
  | remap2 c obj, r => c.prog obj r
  | code n g, r => [.loc fun l => some { l with ub := Function.update l.ub n (g r (l.ub n)) }]
  | own s t u, r => .loc (fun l => some (l.withBufs s t)) :: (u.prog r ++ [.loc fun l => some (l.withBufs s t)])

/-- Separate arrays work with `FFT3d::compute` (see C26): forward, or backward with the same layout of input and output, if some
rank does not own whole rows of the input; backward with different layouts if every rank does, and the output is not whole
columns. -/
def Apart (P : Nat) (a : Args3) (back : Bool) : Prop :=
  ((back = false ∨ SameLayout P a) ∧ SplitRows P a) ∨
    (back = true ∧ ¬ SameLayout P a ∧ ¬ SplitRows P a ∧ SplitCols P a)

/-- The same for `FFT2d`. -/
def Apart2 (P : Nat) (a : Args2) (back : Bool) : Prop :=
  ((back = false ∨ SameLayout2 P a) ∧ SplitRows2 P a) ∨
    (back = true ∧ ¬ SameLayout2 P a ∧ ¬ SplitRows2 P a ∧ SplitCols2 P a)

/-- The object is what `setup` made of documented arguments, `in` and `out` are the same or may be separate; the code of the user
does not free or allocate. -/
def Valid (P : Nat) : Use → Prop
  | fft3 a st f _ _ _ back k n => SetUp3 P a st f ∧ (k = n ∨ Apart P a back)
  | fft2 w a st f _ _ _ back k n => SetUp2 w P a st f ∧ (k = n ∨ Apart2 P a back)
  | remap3 c obj => c.Valid P ∧ c.Setup P obj
  | remap2 c obj => c.Valid P ∧ c.Setup P obj
  | code _ g => ∀ r < P, ∀ u x, (g r u x).isSome = (u x).isSome
  | own s t u => s ≠ t ∧ u.Valid P

/-- The output arrays and the buffers have the sizes that `setup` returned, the input arrays those of the boxes, and for a
backward FFT3d the room that these sizes leave out (see C25). -/
def Room (P : Nat) : Use → (Nat → LMem ℝ) → Prop
  | fft3 a st f _ _ _ back k n, m => Bufs P f n m ∧ (back = true → RoomBack P a st m) ∧
    ∀ r < P, accessible ((m r).ub k) 0 (2 * (if back then a.outs r else a.ins r).count)
  | fft2 _ a _ f _ _ _ back k n, m => Bufs2 P f n m ∧
    ∀ r < P, accessible ((m r).ub k) 0 (2 * (if back then a.outs r else a.ins r).count)
  | remap3 c obj, m => c.Fits P obj m
  | remap2 c obj, m => c.Fits P obj m
  | code _ _, _ => True
  | own s t u, m => Room P u (fun r => (m r).withBufs s t)

/-- Every array but `n` is as before. -/
def Others (P n : Nat) (m m' : Nat → LMem ℝ) : Prop :=
  ∀ r < P, ∀ n', n' ≠ n → (m' r).ub n' = (m r).ub n'

/-- What the statement means for the arrays, whatever grid of values `X` they hold. -/
def Effect (P : Nat) : Use → (Nat → LMem ℝ) → (Nat → LMem ℝ) → Prop
  | fft3 a _ f _ scaled remaponly back k n, m, m' =>
    Kept P f n m m' ∧
    (back = false → ∀ X, Holds P 0 a.ins k X m →
      Holds P a.permute a.outs n (if remaponly then X else a.dft false X) m') ∧
    (back = true → ∀ X, Holds P a.permute a.outs k X m →
      (remaponly = true → Holds P 0 a.ins n X m') ∧
      (remaponly = false → scaled = false → Holds P 0 a.ins n (a.dft true X) m') ∧
      (remaponly = false → scaled = true →
        HoldsScaled P 0 a.ins n (a.dft true X) (1 / a.N) (fun r => (a.outs r).count) m'))
  | fft2 _ a _ f _ scaled remaponly back k n, m, m' =>
    Kept2 P f n m m' ∧
    (back = false → ∀ X, Holds2 P 0 a.ins k X m →
      Holds2 P a.permute a.outs n (if remaponly then X else a.dft false X) m') ∧
    (back = true → ∀ X, Holds2 P a.permute a.outs k X m →
      (remaponly = true → Holds2 P 0 a.ins n X m') ∧
      (remaponly = false → scaled = false → Holds2 P 0 a.ins n (a.dft true X) m') ∧
      (remaponly = false → scaled = true →
        HoldsScaled2 P 0 a.ins n (a.dft true X) (1 / a.N) (fun r => (a.outs r).count) m'))
  | remap3 c _, m, m' => c.Post P (fun r => (m r).ub) (fun r => (m' r).ub)
  | remap2 c _, m, m' => c.Post P (fun r => (m r).ub) (fun r => (m' r).ub)
  | code n g, m, m' => Others P n m m' ∧ ∀ r < P, (m' r).ub n = g r ((m r).ub n)
  | own s t u, m, m' => Effect P u (fun r => (m r).withBufs s t) (fun r => (m' r).withBufs s t)

/-- The program of rank `r`: the statements one after the other. -/
def seq (l : List Use) (r : Nat) : List (Instr ℝ) := l.flatMap fun u => u.prog r

/-- Each statement in turn has its effect. -/
def Effects (P : Nat) : List Use → (Nat → LMem ℝ) → (Nat → LMem ℝ) → Prop
  | [], m, m' => ∀ r < P, m' r = m r
  | u :: l, m, m' => ∃ v, Effect P u m v ∧ Effects P l v m'

theorem withBufs_twice {s t : Nat} (h : s ≠ t) (l : LMem ℝ) : (l.withBufs s t).withBufs s t = l := by
  have h1 : Function.update (Function.update l.ub s l.sb) t l.rb s = l.sb := by
    rw [Function.update_of_ne h, Function.update_self]
  ext1
  · simp only [LMem.withBufs]
    funext n
    by_cases hs : n = s
    · subst hs
      rw [Function.update_of_ne h, Function.update_self]
    · by_cases ht : n = t
      · subst ht
        rw [Function.update_self]
      · rw [Function.update_of_ne ht, Function.update_of_ne hs, Function.update_of_ne ht, Function.update_of_ne hs]
  · exact h1
  · exact Function.update_self _ _ _

theorem sameDom_withBufs {P s t : Nat} {m m' : Nat → LMem ℝ} (h : SameDom P m m') :
    SameDom P (fun r => (m r).withBufs s t) (fun r => (m' r).withBufs s t) := by
  intro r hr
  obtain ⟨h1, h2, h3⟩ := h r hr
  refine ⟨fun n x => ?_, fun x => h1 s x, fun x => h1 t x⟩
  simp only [LMem.withBufs]
  by_cases ht : n = t
  · subst ht
    simp only [Function.update_self]
    exact h3 x
  · simp only [Function.update_of_ne ht]
    by_cases hs : n = s
    · subst hs
      simp only [Function.update_self]
      exact h2 x
    · simp only [Function.update_of_ne hs]
      exact h1 n x

theorem Room.congr {P : Nat} {u : Use} {m m' : Nat → LMem ℝ} (h : Room P u m) (hd : SameDom P m m') : Room P u m' := by
  induction u generalizing m m' with
  | own s t u ih => exact ih h (sameDom_withBufs hd)
  | fft3 =>
    exact ⟨h.1.congr hd, fun hb => (h.2.1 hb).congr hd, fun r hr => accessible_congr ((hd r hr).1 _) (h.2.2 r hr)⟩
  | fft2 => exact ⟨h.1.congr hd, fun r hr => accessible_congr ((hd r hr).1 _) (h.2 r hr)⟩
  | remap3 => exact Call3.Fits.congr h hd
  | remap2 => exact Call2.Fits.congr h hd
  | code => trivial

/-- `Holds` depends on the memory of the ranks only. -/
theorem holds_of {P : Nat} {p : Int} {bs : Nat → Box3} {n : Nat} {X : Grid3} {m m' : Nat → LMem ℝ}
    (h : ∀ r < P, m' r = m r) (k : Holds P p bs n X m) : Holds P p bs n X m' := by
  intro r hr; rw [h r hr]; exact k r hr

theorem holds2_of {P : Nat} {p : Int} {bs : Nat → Box2} {n : Nat} {X : Grid2} {m m' : Nat → LMem ℝ}
    (h : ∀ r < P, m' r = m r) (k : Holds2 P p bs n X m) : Holds2 P p bs n X m' := by
  intro r hr; rw [h r hr]; exact k r hr

theorem scaled_of {P : Nat} {p : Int} {bs : Nat → Box3} {n : Nat} {X : Grid3} {s : ℝ} {num num' : Nat → Int} {m m' : Nat → LMem ℝ}
    (h : ∀ r < P, m' r = m r) (hn : ∀ r < P, num' r = num r) (k : HoldsScaled P p bs n X s num m) :
    HoldsScaled P p bs n X s num' m' := by
  intro r hr; rw [h r hr, hn r hr]; exact k r hr

theorem scaled2_of {P : Nat} {p : Int} {bs : Nat → Box2} {n : Nat} {X : Grid2} {s : ℝ} {num num' : Nat → Int} {m m' : Nat → LMem ℝ}
    (h : ∀ r < P, m' r = m r) (hn : ∀ r < P, num' r = num r) (k : HoldsScaled2 P p bs n X s num m) :
    HoldsScaled2 P p bs n X s num' m' := by
  intro r hr; rw [h r hr, hn r hr]; exact k r hr

theorem holds2_some {P : Nat} {bs : Nat → Box2} {n1 n2 : Int} {p : Int} (T : Tiles2 P bs n1 n2) (hp : p = 0 ∨ p = 1) {n : Nat}
    {m : Nat → LMem ℝ} (hd : ∀ r < P, accessible ((m r).ub n) 0 (2 * (bs r).count)) : ∃ X, Holds2 P p bs n X m := by
  obtain ⟨X, hX⟩ := holds_some (p := p) (n := n) (m := m) T.lift.disjoint (fun r hr => by
    rw [Box2.lift_count]; exact hd r hr)
  refine ⟨fun i j => X i j 0, ?_⟩
  intro r hr
  rw [holdsBox2_lift hp]
  intro i j k hh
  have := hX r hr i j k hh
  have hk : k = 0 := by
    have := Box2.lift_has.mp hh
    omega
  subst hk
  exact this

/-- One statement. -/
theorem once (e : Bool) {P : Nat} (u : Use) (m : Nat → LMem ℝ) (hv : u.Valid P) (hr : Room P u m) :
    ∃ m', StageOK e P (u.prog) m m' ∧ Effect P u m m' ∧ SameDom P m m' := by
  induction u generalizing m with
  | own s t u ih =>
    obtain ⟨m1, h1, h2, h3⟩ := ih (fun r => (m r).withBufs s t) hv.2 hr
    have l1 := StageOK.loc (e := e) (P := P) (fun _ => [fun l => some (l.withBufs s t)]) m (fun r => (m r).withBufs s t)
      (fun _ _ => rfl)
    have l2 := StageOK.loc (e := e) (P := P) (fun _ => [fun l => some (l.withBufs s t)]) m1 (fun r => (m1 r).withBufs s t)
      (fun _ _ => rfl)
    have e1 : (fun r => ((m1 r).withBufs s t).withBufs s t) = m1 := funext fun r => withBufs_twice hv.1 _
    have e0 : (fun r => ((m r).withBufs s t).withBufs s t) = m := funext fun r => withBufs_twice hv.1 _
    refine ⟨fun r => (m1 r).withBufs s t, ((l1.append h1).append l2).congr (fun r _ => by simp [prog]), ?_, ?_⟩
    · simp only [Effect]
      rw [e1]
      exact h2
    · have := sameDom_withBufs (s := s) (t := t) h3
      rwa [e0] at this
  | fft3 a st f J scaled remaponly back k n =>
    have S : SetUp3 P a st f := hv.1
    have ha := hv.2
    obtain ⟨hb, hr, hin⟩ := hr
    obtain ⟨c, rfl, rfl, rfl, _, R⟩ := S.ready
    cases back with
    | false =>
      obtain ⟨X0, h0⟩ := holds_some (p := 0) R.ins_tiles.disjoint hin
      have hw : k = n ∨ preflag c.P c.a = true :=
        ha.imp_right fun h => preflag_iff.mpr (h.elim (fun h => h.2) fun h => by cases h.1)
      obtain ⟨m', s, _⟩ := R.compute_fwd e J scaled remaponly (flag := 1) (.inl rfl) hw h0 hb
      refine ⟨m', s.ok, ⟨s.kept, fun _ X hX => ?_, fun h => by cases h⟩, s.dom⟩
      obtain ⟨m2, s2, h2⟩ := R.compute_fwd e J scaled remaponly (flag := 1) (.inl rfl) hw hX hb
      have h2 := holds_of (s2.ok.terminates.agree s.ok.terminates) (by simpa using h2)
      cases remaponly <;> simpa [Ready.effect] using h2
    | true =>
      obtain ⟨X0, h0⟩ := holds_some (p := c.a.permute) R.outs_tiles.disjoint hin
      have go : ∀ X, Holds c.P c.a.permute c.a.outs k X m →
          ∃ m', Step e c.P (fsz f) n (fun r => (f r).compute (J r) scaled remaponly (-1) k n) m m' ∧
            (if scaled ∧ ¬ remaponly then
              HoldsScaled c.P 0 c.a.ins n (Ready.effect c remaponly (-1) X) (1 / c.a.N) (fun r => boxSize (c.a.outs r)) m'
            else Holds c.P 0 c.a.ins n (Ready.effect c remaponly (-1) X) m') := by
        intro X hX
        rcases ha with rfl | ha
        · exact R.back e J scaled remaponly hX hb (hr rfl)
        · refine R.back_apart e J scaled remaponly (ha.imp (fun h => ⟨?_, h.2⟩) fun h => h.2) hX hb (hr rfl)
          exact h.1.resolve_left (by simp)
      obtain ⟨m', s, _⟩ := go X0 h0
      refine ⟨m', s.ok, ⟨s.kept, (fun h => by cases h), fun _ X hX => ?_⟩, s.dom⟩
      obtain ⟨m2, s2, h2⟩ := go X hX
      have he := s2.ok.terminates.agree s.ok.terminates
      refine ⟨?_, ?_, ?_⟩
      · rintro rfl
        exact holds_of he (by simpa [Ready.effect] using h2)
      · rintro rfl rfl
        exact holds_of he (by simpa [Ready.effect] using h2)
      · rintro rfl rfl
        simp only [Bool.false_eq_true, not_false_eq_true, and_true, if_true] at h2
        refine scaled_of he (fun r hr => (boxSize_eq_count (R.args.properOut r hr)).symm) ?_
        simpa [Ready.effect] using h2
  | fft2 w a st f J scaled remaponly back k n =>
    have S : SetUp2 w P a st f := hv.1
    have ha := hv.2
    obtain ⟨hb, hin⟩ := hr
    obtain ⟨c, rfl, rfl, rfl, rfl, _, R⟩ := S.ready
    cases back with
    | false =>
      obtain ⟨X0, h0⟩ := holds2_some (p := 0) R.ins_tiles (.inl rfl) hin
      have hw : k = n ∨ preflag2 c.P c.a = true :=
        ha.imp_right fun h => preflag2_iff.mpr (h.elim (fun h => h.2) fun h => by cases h.1)
      obtain ⟨m', s, _⟩ := R.compute_fwd e J scaled remaponly (flag := 1) (.inl rfl) hw h0 hb
      refine ⟨m', s.ok, ⟨s.kept2, fun _ X hX => ?_, fun h => by cases h⟩, s.dom⟩
      obtain ⟨m2, s2, h2⟩ := R.compute_fwd e J scaled remaponly (flag := 1) (.inl rfl) hw hX hb
      have h2 := holds2_of (s2.ok.terminates.agree s.ok.terminates) (by simpa using h2)
      cases remaponly <;> simpa [Ready2.effect] using h2
    | true =>
      obtain ⟨X0, h0⟩ := holds2_some (p := c.a.permute) R.outs_tiles R.args.permute hin
      have go : ∀ X, Holds2 c.P c.a.permute c.a.outs k X m →
          ∃ m', Step e c.P (fsz2 f) n (fun r => (f r).compute (J r) scaled remaponly (-1) k n) m m' ∧
            (if scaled ∧ ¬ remaponly then
              HoldsScaled2 c.P 0 c.a.ins n (Ready2.effect c remaponly (-1) X) (1 / Ready2.N c)
                (fun r => boxSize2 (c.a.outs r)) m'
            else Holds2 c.P 0 c.a.ins n (Ready2.effect c remaponly (-1) X) m') := by
        intro X hX
        rcases ha with rfl | ha
        · exact R.compute_back e J scaled remaponly hX hb
        · refine R.back_apart e J scaled remaponly (ha.imp (fun h => ⟨?_, h.2⟩) fun h => h.2) hX hb
          exact h.1.resolve_left (by simp)
      obtain ⟨m', s, _⟩ := go X0 h0
      refine ⟨m', s.ok, ⟨s.kept2, (fun h => by cases h), fun _ X hX => ?_⟩, s.dom⟩
      obtain ⟨m2, s2, h2⟩ := go X hX
      have he := s2.ok.terminates.agree s.ok.terminates
      refine ⟨?_, ?_, ?_⟩
      · rintro rfl
        exact holds2_of he (by simpa [Ready2.effect] using h2)
      · rintro rfl rfl
        exact holds2_of he (by simpa [Ready2.effect] using h2)
      · rintro rfl rfl
        simp only [Bool.false_eq_true, not_false_eq_true, and_true, if_true] at h2
        refine scaled2_of he (fun r hr => (boxSize2_eq_count (R.args.properOut r hr)).symm) ?_
        exact h2
  | remap3 c obj => exact remap3_main e hv.1 hv.2 hr
  | remap2 c obj => exact remap2_main e hv.1 hv.2 hr
  | code n g =>
    refine ⟨fun r => { m r with ub := Function.update (m r).ub n (g r ((m r).ub n)) }, ?_, ⟨?_, ?_⟩, ?_⟩
    · exact StageOK.loc (fun r => [fun l => some { l with ub := Function.update l.ub n (g r (l.ub n)) }]) m _
        (fun r _ => rfl)
    · intro r _ n' hn
      exact Function.update_of_ne hn _ _
    · intro r _
      exact Function.update_self _ _ _
    · intro r hlt
      refine ⟨fun n' x => ?_, fun _ => rfl, fun _ => rfl⟩
      by_cases hn : n' = n
      · subst hn
        simp only [Function.update_self]
        exact hv r hlt _ x
      · simp only [Function.update_of_ne hn]

theorem all (e : Bool) {P : Nat} (l : List Use) (m : Nat → LMem ℝ) (hv : ∀ u ∈ l, u.Valid P) (hr : ∀ u ∈ l, Room P u m) :
    ∃ m', StageOK e P (seq l) m m' ∧ Effects P l m m' ∧ SameDom P m m' := by
  induction l generalizing m with
  | nil => exact ⟨m, StageOK.nil m, fun _ _ => rfl, SameDom.refl P m⟩
  | cons u l ih =>
    obtain ⟨m1, h1, h2, h3⟩ := once e u m (hv u (by simp)) (hr u (by simp))
    obtain ⟨m2, h4, h5, h6⟩ := ih m1 (fun d hd => hv d (by simp [hd])) (fun d hd => (hr d (by simp [hd])).congr h3)
    exact ⟨m2, (h1.append h4).congr (fun r _ => by simp [seq]), ⟨m1, h2, h5⟩, h3.trans h6⟩

end Use

theorem SetUp3.size_ins {P : Nat} {a : Args3} {st : Settings} {f : Nat → Fft3 ℝ} (S : SetUp3 P a st f) {r : Nat} (hr : r < P) :
    (a.ins r).count ≤ (f r).fftsize := by
  obtain ⟨c, rfl, rfl, rfl, _, R⟩ := S.ready
  exact R.size_ins hr

theorem SetUp3.size_outs {P : Nat} {a : Args3} {st : Settings} {f : Nat → Fft3 ℝ} (S : SetUp3 P a st f) {r : Nat} (hr : r < P) :
    (a.outs r).count ≤ (f r).fftsize := by
  obtain ⟨c, rfl, rfl, rfl, _, R⟩ := S.ready
  exact R.size_outs hr

/-- **C81.**  Any calls of `compute` and `remap` on any objects, in any order, with code of the user in between: under every
schedule, with buffered and with synchronous sends, the program runs to its end without deadlock and without access out of
bounds, and every call has the effect it has alone.  The final state is the same for all schedules (`Terminates`).

Partial: separate arrays `in` and `out` of FFTs only where they work (`Apart`; see C26). -/
theorem C81_several_partial (e : Bool) {P : Nat} (l : List Use) (m : Nat → LMem ℝ) (hv : ∀ u ∈ l, u.Valid P)
    (hr : ∀ u ∈ l, u.Room P m) : ∃ m', Terminates e P (Use.seq l) m m' ∧ Use.Effects P l m m' := by
  obtain ⟨m', h1, h2, _⟩ := Use.all e l m hv hr
  exact ⟨m', h1.terminates, h2⟩

/-- **One object transforms, another transforms back**: the second may have other input boxes, other settings. The values come
back, times the number of points, in the layout of the second object. -/
theorem C81_hand_over_partial (e : Bool) {P : Nat} {a b : Args3} {st st' : Settings} {f g : Nat → Fft3 ℝ} (S : SetUp3 P a st f)
    (S' : SetUp3 P b st' g) (hfast : b.nfast = a.nfast) (hmid : b.nmid = a.nmid) (hslow : b.nslow = a.nslow)
    (hp : b.permute = a.permute) (ho : ∀ r < P, b.outs r = a.outs r) (J J' : Nat → Nat → Junk) {n : Nat} {X : Grid3}
    {m : Nat → LMem ℝ} (hX : Holds P 0 a.ins n X m) (hb : Bufs P f n m) (hb' : Bufs P g n m) (hr : RoomBack P b st' m) :
    ∃ m', Terminates e P (fun r => (f r).compute (J r) false false 1 n n ++ (g r).compute (J' r) false false (-1) n n) m m' ∧
      Holds P 0 b.ins n (fun i j k => (a.nfast * a.nmid * a.nslow : ℂ) * X i j k) m' := by
  obtain ⟨m', h1, h2⟩ := C81_several_partial e
    [.fft3 a st f J false false false n n, .fft3 b st' g J' false false true n n] m
    (by intro u hu; simp only [List.mem_cons, List.not_mem_nil, or_false] at hu; rcases hu with rfl | rfl; exacts [⟨S, .inl rfl⟩, ⟨S', .inl rfl⟩])
    (by intro u hu; simp only [List.mem_cons, List.not_mem_nil, or_false] at hu
        rcases hu with rfl | rfl
        · exact ⟨hb, (fun h => by cases h), fun r hr => accessible_mono (hb.data r hr) (by have := S.size_ins hr; simp; omega)⟩
        · exact ⟨hb', fun _ => hr, fun r hr => accessible_mono (hb'.data r hr) (by have := S'.size_outs hr; simp; omega)⟩)
  obtain ⟨v, ⟨_, k1, _⟩, w, ⟨_, _, k2⟩, k3⟩ := h2
  have q1 := k1 rfl X hX
  have q2 : Holds P b.permute b.outs n (a.dft false X) v := by
    intro r hr
    rw [hp, ho r hr]
    exact q1 r hr
  have q3 := (k2 rfl _ q2).2.1 rfl rfl
  have hs : Use.seq [.fft3 a st f J false false false n n, .fft3 b st' g J' false false true n n] =
      fun r => (f r).compute (J r) false false 1 n n ++ (g r).compute (J' r) false false (-1) n n := by
    funext r
    simp [Use.seq, Use.prog, Use.flagOf]
  rw [hs] at h1
  refine ⟨m', h1, ?_⟩
  intro r hr i j k hh
  obtain ⟨h1, h2, h3⟩ := S'.args.tilesIn.inside r hr i j k hh
  have d1 := S'.args.fast; have d2 := S'.args.mid; have d3 := S'.args.slow
  have inv := dft3_inv (n1 := a.nfast.toNat) (n2 := a.nmid.toNat) (n3 := a.nslow.toNat) X
    (i := i) (j := j) (k := k) (by omega) (by omega) (by omega)
  have q4 := q3 r hr i j k hh
  rw [← k3 r hr] at q4
  unfold Args3.dft at q4
  rw [hfast, hmid, hslow, inv] at q4
  have c1 : ((a.nfast.toNat : ℕ) : ℂ) = (a.nfast : ℂ) := by
    have : ((a.nfast.toNat : ℕ) : ℤ) = a.nfast := Int.toNat_of_nonneg (by omega)
    exact_mod_cast congrArg (Int.cast : ℤ → ℂ) this
  have c2 : ((a.nmid.toNat : ℕ) : ℂ) = (a.nmid : ℂ) := by
    have : ((a.nmid.toNat : ℕ) : ℤ) = a.nmid := Int.toNat_of_nonneg (by omega)
    exact_mod_cast congrArg (Int.cast : ℤ → ℂ) this
  have c3 : ((a.nslow.toNat : ℕ) : ℂ) = (a.nslow : ℂ) := by
    have : ((a.nslow.toNat : ℕ) : ℤ) = a.nslow := Int.toNat_of_nonneg (by omega)
    exact_mod_cast congrArg (Int.cast : ℤ → ℂ) this
  rw [c1, c2, c3] at q4
  exact q4

/-! ## Examples -/

/-- A memory where every address is accessible, array 0 with the values of a grid. -/
def roomy (b : Nat → Box3) (X : Grid3) (r : Nat) : LMem ℝ where
  ub n := if n = 0 then fun x => some ((arrayOf 0 (b r) X (b r).count x).getD 0) else fun x => some x
  sb _ := some 0
  rb _ := some 0

theorem roomy_ub (b : Nat → Box3) (X : Grid3) (r n : Nat) (x : Int) : ((roomy b X r).ub n x).isSome := by
  unfold roomy
  dsimp only
  split <;> rfl

theorem roomy_holds (P : Nat) (b : Nat → Box3) (X : Grid3) : Holds P 0 b 0 X (roomy b X) := by
  intro r _ i j k hh
  obtain ⟨h1, h2⟩ := arrayOf_holds (p := 0) (X := X) (n := (b r).count) le_rfl i j k hh
  refine ⟨?_, ?_⟩ <;> simp [roomy, h1, h2]

/-- The example grid with the boxes of the output for the input too. -/
def stay3 : Args3 := { demo3 1 with ins := (demo3 1).outs }

theorem stay3_valid : stay3.Valid 2 :=
  { demo3_valid 1 (by decide) with
    tilesIn := (demo3_valid 1 (by decide)).tilesOut
    properIn := by
      intro r hr
      simp only [stay3, demo3, Box3.Proper, Box3.Within, Box3.isize, Box3.jsize, Box3.ksize]
      omega }

/-- Two FFT3d objects, an FFT2d object, a remap and code of the user, on different arrays; the second FFT3d has its own buffers
in one call.  Two calls have separate arrays, forward and backward. -/
example : ∃ (f g : Nat → Fft3 ℝ) (h : Nat → Fft2 ℝ) (obj : Nat → RemapObj ℝ PackPlan3) (m : Nat → LMem ℝ),
    let J : Nat → Nat → Junk := fun _ _ _ => (0, 0)
    let l : List Use :=
      [.fft3 (demo3 1) ⟨2, 1, 2⟩ f J true false false 0 0, .fft2 1 (plane2 1) ⟨0, 0, 1⟩ h J true false false 1 1,
        .code 0 (fun _ u x => (u x).map (2 * ·)), .remap3 (demo 1 2 false 2 3) obj,
        Use.own 7 8 (.fft3 stay3 ⟨0, 0, 0⟩ g J true false true 0 0), .fft2 1 (plane2 1) ⟨0, 0, 1⟩ h J true false true 1 1,
        .fft3 stay3 ⟨0, 0, 0⟩ g J true false false 0 4, .fft3 (demo3 1) ⟨2, 1, 2⟩ f J true false true 4 5]
    (∀ u ∈ l, u.Valid 2) ∧ (∀ u ∈ l, u.Room 2 m) ∧ Holds 2 0 (demo3 1).ins 0 (fun i j k => i + 2 * j + 5 * k) m := by
  obtain ⟨f, S⟩ := setUp3_exists (demo3_valid 1 (by decide)) (st := ⟨2, 1, 2⟩) (by simp [Settings.Valid])
  obtain ⟨g, S'⟩ := setUp3_exists stay3_valid (st := ⟨0, 0, 0⟩) (by simp [Settings.Valid])
  obtain ⟨h, T⟩ := setUp2_exists (w := 1) (plane2_valid 1 (by decide)) (st := ⟨0, 0, 1⟩) (by simp [Settings.Valid2, FlagOk2])
  obtain ⟨obj, hs⟩ := setup3_exists (α := ℝ) 2 (demo 1 2 false 2 3) (by decide) (Or.inr (Or.inl rfl)) (Or.inr (Or.inr rfl))
  refine ⟨f, g, h, obj, roomy (demo3 1).ins (fun i j k => i + 2 * j + 5 * k), ?_, ?_, roomy_holds _ _ _⟩
  · intro u hu
    simp only [List.mem_cons, List.not_mem_nil, or_false] at hu
    rcases hu with rfl | rfl | rfl | rfl | rfl | rfl | rfl | rfl
    · exact ⟨S, .inl rfl⟩
    · exact ⟨T, .inl rfl⟩
    · intro r _ u x
      simp
    · exact ⟨demo_valid _ _ _ _ _ (Or.inr (Or.inl rfl)) (Or.inr (Or.inr rfl)), hs⟩
    · exact ⟨by decide, S', .inl rfl⟩
    · exact ⟨T, .inl rfl⟩
    · exact ⟨S', .inr (.inl ⟨.inl rfl, 0, by decide, by simp [stay3, demo3]⟩)⟩
    · exact ⟨S, .inr (.inr ⟨rfl, fun h => by simpa [demo3] using h.1, fun ⟨r, _, h⟩ => by simp [demo3] at h,
        .inl (by simp [demo3])⟩)⟩
  · have ha : ∀ r n k, accessible ((roomy (demo3 1).ins (fun i j k => i + 2 * j + 5 * k) r).ub n) 0 k :=
      fun r n k x _ _ => roomy_ub _ _ _ _ _
    have hsb : ∀ r k, accessible (roomy (demo3 1).ins (fun i j k => i + 2 * j + 5 * k) r).sb 0 k := fun _ _ _ _ _ => rfl
    have hrb : ∀ r k, accessible (roomy (demo3 1).ins (fun i j k => i + 2 * j + 5 * k) r).rb 0 k := fun _ _ _ _ _ => rfl
    intro u hu
    simp only [List.mem_cons, List.not_mem_nil, or_false] at hu
    rcases hu with rfl | rfl | rfl | rfl | rfl | rfl | rfl | rfl
    · exact ⟨⟨fun _ _ => ha _ _ _, fun _ _ => hsb _ _, fun _ _ => hrb _ _⟩, (fun h => by cases h), fun _ _ => ha _ _ _⟩
    · exact ⟨⟨fun _ _ => ha _ _ _, fun _ _ => hsb _ _, fun _ _ => hrb _ _⟩, fun _ _ => ha _ _ _⟩
    · trivial
    · exact ⟨fun _ _ => ha _ _ _, fun _ _ => ha _ _ _, fun _ _ => hsb _ _, fun _ _ => hrb _ _⟩
    · exact ⟨⟨fun r _ => ha r 0 _, fun r _ => ha r 7 _, fun r _ => ha r 8 _⟩, fun _ => .inl rfl, fun r _ => ha r 0 _⟩
    · exact ⟨⟨fun _ _ => ha _ _ _, fun _ _ => hsb _ _, fun _ _ => hrb _ _⟩, fun _ _ => ha _ _ _⟩
    · exact ⟨⟨fun _ _ => ha _ _ _, fun _ _ => hsb _ _, fun _ _ => hrb _ _⟩, (fun h => by cases h), fun _ _ => ha _ _ _⟩
    · exact ⟨⟨fun _ _ => ha _ _ _, fun _ _ => hsb _ _, fun _ _ => hrb _ _⟩, fun _ => S.room fun _ _ => ⟨hsb _ _, hrb _ _⟩,
        fun _ _ => ha _ _ _⟩

/-- The input of the first object is by slabs in `k`, that of the second by slabs in `i`: after transforming with the first and
back with the second, rank 1 has `16*1` for the point (1,0,0), which was on rank 0. -/
example : ∃ (f g : Nat → Fft3 ℝ) (m m' : Nat → LMem ℝ), SetUp3 2 (demo3 1) ⟨2, 1, 2⟩ f ∧ SetUp3 2 stay3 ⟨0, 1, 0⟩ g ∧
    Terminates true 2 (fun r => (f r).compute (fun _ _ => (0, 0)) false false 1 0 0 ++
      (g r).compute (fun _ _ => (0, 0)) false false (-1) 0 0) m m' ∧
    ((m' 1).ub 0 (addr3 0 (stay3.ins 1) 2 1 0 0 0) = some 16) := by
  obtain ⟨f, S⟩ := setUp3_exists (demo3_valid 1 (by decide)) (st := ⟨2, 1, 2⟩) (by simp [Settings.Valid])
  obtain ⟨g, S'⟩ := setUp3_exists stay3_valid (st := ⟨0, 1, 0⟩) (by simp [Settings.Valid])
  have hsb : ∀ (X : Grid3) r k, accessible (roomy (demo3 1).ins X r).sb 0 k := fun _ _ _ _ _ _ => rfl
  have hrb : ∀ (X : Grid3) r k, accessible (roomy (demo3 1).ins X r).rb 0 k := fun _ _ _ _ _ _ => rfl
  obtain ⟨m', h1, h2⟩ := C81_hand_over_partial true S S' rfl rfl rfl rfl (fun _ _ => rfl) (fun _ _ _ => (0, 0))
    (fun _ _ _ => (0, 0)) (n := 0) (roomy_holds 2 (demo3 1).ins (fun i j k => i + 2 * j + 5 * k))
    ⟨fun _ _ _ _ _ => roomy_ub _ _ _ _ _, fun _ _ => hsb _ _ _, fun _ _ => hrb _ _ _⟩
    ⟨fun _ _ _ _ _ => roomy_ub _ _ _ _ _, fun _ _ => hsb _ _ _, fun _ _ => hrb _ _ _⟩
    (S'.room fun _ _ => ⟨hsb _ _ _, hrb _ _ _⟩)
  refine ⟨f, g, _, m', S, S', h1, ?_⟩
  have := (h2 1 (by decide) 1 0 0 (by simp [stay3, demo3, Box3.Has])).1
  rw [this]
  norm_num [demo3]

end FftMpi
