import Verif.DriverArgsLemmas
import Verif.PropsDriver

/-!
# Lemmas about the checks of `options` and about numbers as text
-/

namespace FftMpi

namespace Driver

variable {three : Bool} {neg : String → Bool} {me P : Nat} {args : List String}

/-! ## The checks -/

theorem runCheck_rel {o0 : Cmd} {s : Int} (h : o0.iflag = 3 → (s ≤ 0 ↔ o0.seed ≤ 0)) :
    runCheck three { o0 with seed := s } = runCheck three o0 := by
  have : (o0.iflag = 3 ∧ s ≤ 0) = (o0.iflag = 3 ∧ o0.seed ≤ 0) :=
    propext ⟨fun k => ⟨k.1, (h k.1).1 k.2⟩, fun k => ⟨k.1, (h k.1).2 k.2⟩⟩
  unfold runCheck
  dsimp only
  simp only [this]

theorem argCheck_rel {o0 : Cmd} {s : Int} (h : o0.iflag = 3 → (s ≤ 0 ↔ o0.seed ≤ 0)) :
    argCheck three P { o0 with seed := s } = argCheck three P o0 := by
  unfold argCheck
  rw [runCheck_rel h]

theorem gridCheck_some {x y z : Int}
    (h : 0 < x → 0 < y → (three = true → 0 < z) → Fits (x * y) ∧ (three = true → Fits (x * y * z))) :
    ∃ e, gridCheck three P x y z = some e := by
  unfold gridCheck
  split_ifs with h1 h2 h3
  · exact ⟨_, rfl⟩
  · exact ⟨_, rfl⟩
  · have hh := h (by omega) (by omega) (fun h => by by_contra hz; exact h2 (Or.inr (Or.inr ⟨h, by omega⟩)))
    exact ⟨_, by rw [mul32_eq hh.1, Option.bind_some, mul32_eq (hh.2 h3)]; rfl⟩
  · have hh := h (by omega) (by omega) (fun h => absurd h h3)
    exact ⟨_, by rw [mul32_eq hh.1]; rfl⟩

theorem gridCheck_ok {x y z : Int} (h : gridCheck three P x y z = some none) :
    (x = 0 ∧ y = 0 ∧ (three = true → z = 0)) ∨
      (0 < x ∧ 0 < y ∧ (three = true → 0 < z) ∧ (if three then x * y * z else x * y) = P) := by
  unfold gridCheck at h
  split_ifs at h with h1 h2 h3
  · exact Or.inl h1
  · cases h
  · right
    simp only [Option.bind_eq_some_iff, Option.map_eq_some_iff] at h
    obtain ⟨v, hv, w, hw, h⟩ := h
    rw [(ck_some hv).1] at hw
    rw [(ck_some hw).1] at h
    split_ifs at h with h4
    refine ⟨by omega, by omega, fun h => ?_, ?_⟩
    · by_contra hz; exact h2 (Or.inr (Or.inr ⟨h, by omega⟩))
    · rw [if_pos h3]; omega
  · right
    simp only [Option.bind_eq_some_iff, Option.map_eq_some_iff] at h
    obtain ⟨v, hv, w, hw, h⟩ := h
    cases hw
    rw [(ck_some hv).1] at h
    split_ifs at h with h4
    refine ⟨by omega, by omega, fun h => absurd h h3, ?_⟩
    rw [if_neg h3]; omega

theorem ite_none {γ : Type} {c : Prop} [Decidable c] {e : γ} {a : Option γ} (h : (if c then some e else a) = none) :
    ¬ c ∧ a = none := by
  by_cases hc : c
  · rw [if_pos hc] at h; cases h
  · rw [if_neg hc] at h; exact ⟨hc, h⟩

/-- The options after the checks. -/
structure Checked (three : Bool) (o : Cmd) : Prop where
  nloop : 0 ≤ o.nloop
  nloop0 : o.nloop = 0 → three = true ∧ o.tuneflag = true
  seed : o.iflag = 3 → 0 < o.seed
  mode : 0 ≤ o.mode ∧ o.mode ≤ 3
  vflag : o.vflag = true → o.mode ≤ 1
  tune : o.tuneflag = true → 0 < o.tuneper ∧ o.tmneg = false ∧ 0 ≤ o.tuneextra ∧ o.tuneextra ≤ 1 ∧ o.rflag = false

theorem runCheck_ok {o : Cmd} (h : runCheck three o = none) : Checked three o := by
  obtain ⟨h1, h⟩ := ite_none h
  obtain ⟨h2, h⟩ := ite_none h
  obtain ⟨h3, h⟩ := ite_none h
  obtain ⟨h4, h⟩ := ite_none h
  obtain ⟨h5, h⟩ := ite_none h
  obtain ⟨h6, h⟩ := ite_none h
  obtain ⟨h7, h⟩ := ite_none h
  obtain ⟨h8, h⟩ := ite_none h
  obtain ⟨h9, h⟩ := ite_none h
  refine ⟨by omega, fun h0 => ⟨?_, ?_⟩, fun hi => ?_, by omega, fun hv => ?_, fun ht => ⟨?_, ?_, ?_, ?_, ?_⟩⟩
  · cases three
    · exact absurd (Or.inr ⟨rfl, by omega⟩) h1
    · rfl
  · cases ht : o.tuneflag
    · exact absurd ⟨h0, ht⟩ h2
    · rfl
  · by_contra hs; exact h3 ⟨hi, by omega⟩
  · by_contra hs; exact h5 ⟨by omega, hv⟩
  · by_contra hs; exact h6 ⟨ht, by omega⟩
  · cases hm : o.tmneg
    · rfl
    · exact absurd ⟨ht, hm⟩ h7
  · by_contra hs; exact h8 ⟨ht, by omega⟩
  · by_contra hs; exact h8 ⟨ht, by omega⟩
  · cases hm : o.rflag
    · rfl
    · exact absurd ⟨ht, hm⟩ h9

theorem runCheck_of {o : Cmd} (h : Checked three o) : runCheck three o = none := by
  unfold runCheck
  rw [if_neg, if_neg, if_neg, if_neg, if_neg, if_neg, if_neg, if_neg, if_neg]
  · rintro ⟨ht, h1⟩
    rw [(h.tune ht).2.2.2.2] at h1
    cases h1
  · rintro ⟨ht, h1⟩
    have := h.tune ht
    omega
  · rintro ⟨ht, h1⟩
    rw [(h.tune ht).2.1] at h1
    cases h1
  · rintro ⟨ht, h1⟩
    have := h.tune ht
    omega
  · rintro ⟨h1, hv⟩
    have := h.vflag hv
    omega
  · have := h.mode
    omega
  · rintro ⟨hi, h1⟩
    have := h.seed hi
    omega
  · rintro ⟨h0, ht⟩
    rw [(h.nloop0 h0).2] at ht
    cases ht
  · rintro (h1 | ⟨ht, h1⟩)
    · have := h.nloop
      omega
    · have h0 := h.nloop
      rw [(h.nloop0 (by omega)).1] at ht
      cases ht

theorem argCheck_ok {o : Cmd} (h : argCheck three P o = some none) :
    0 < o.nx ∧ 0 < o.ny ∧ (three = true → 0 < o.nz) ∧ gridCheck three P o.inpx o.inpy o.inpz = some none ∧
      gridCheck three P o.outpx o.outpy o.outpz = some none ∧ Checked three o := by
  unfold argCheck at h
  by_cases h1 : o.nx ≤ 0 ∨ o.ny ≤ 0 ∨ (three = true ∧ o.nz ≤ 0)
  · rw [if_pos h1] at h; cases h
  · rw [if_neg h1, Option.bind_eq_some_iff] at h
    obtain ⟨e, he, h⟩ := h
    rcases e with _ | e
    · dsimp only at h
      rw [Option.map_eq_some_iff] at h
      obtain ⟨e', he', h⟩ := h
      rcases e' with _ | e'
      · refine ⟨by omega, by omega, fun ht => ?_, he, he', runCheck_ok h⟩
        by_contra hz; exact h1 (Or.inr (Or.inr ⟨ht, by omega⟩))
      · cases h
    · cases h

theorem argCheck_of {o : Cmd} (hx : 0 < o.nx) (hy : 0 < o.ny) (hz : three = true → 0 < o.nz)
    (h1 : gridCheck three P o.inpx o.inpy o.inpz = some none) (h2 : gridCheck three P o.outpx o.outpy o.outpz = some none)
    (hc : Checked three o) : argCheck three P o = some none := by
  unfold argCheck
  rw [if_neg, h1, h2]
  · exact congrArg some (runCheck_of hc)
  · rintro (h | h | ⟨h, h'⟩)
    · omega
    · omega
    · have := hz h
      omega

theorem argCheck_some {o : Cmd} (h1 : ∃ e, gridCheck three P o.inpx o.inpy o.inpz = some e)
    (h2 : ∃ e, gridCheck three P o.outpx o.outpy o.outpz = some e) : ∃ e, argCheck three P o = some e := by
  obtain ⟨e, he⟩ := h1
  obtain ⟨e', he'⟩ := h2
  unfold argCheck
  refine ite_ind (fun x : Option (Option String) => ∃ e, x = some e) (fun _ => ⟨_, rfl⟩) fun _ => ?_
  rw [he, he']
  rcases e with _ | e
  · exact ⟨_, rfl⟩
  · exact ⟨_, rfl⟩

/-- The two parts of `options`. -/
theorem options_ok {o : Cmd} (h : options three neg P me args = some (.ok o)) :
    argLoop three neg me args (args.length + 1) 1 Cmd.default = some (.ok o) ∧ argCheck three P o = some none := by
  unfold options at h
  rcases hl : argLoop three neg me args (args.length + 1) 1 Cmd.default with _ | e | p
  · rw [hl] at h; cases h
  · rw [hl] at h; cases h
  · rw [hl] at h
    dsimp only at h
    rw [Option.map_eq_some_iff] at h
    obtain ⟨e, he, h⟩ := h
    rcases e with _ | e
    · cases h
      exact ⟨rfl, he⟩
    · cases h

theorem options_of {o : Cmd} (h : argLoop three neg me args (args.length + 1) 1 Cmd.default = some (.ok o))
    (hc : argCheck three P o = some none) : options three neg P me args = some (.ok o) := by
  unfold options
  rw [h]
  dsimp only
  rw [hc]
  rfl

/-! ## Numbers as text -/

theorem digits_eq (l : List Char) (hl : ∀ c ∈ l, c.isDigit) (v : Nat) :
    digits v l = (Nat.ofDigitChars 10 l v : Nat) := by
  induction l generalizing v with
  | nil => simp [digits]
  | cons c l ih =>
    have hc := hl c (by simp)
    have hd : '0' ≤ c ∧ c ≤ '9' := by
      simpa [Char.isDigit, Char.le_def] using hc
    rw [digits, if_pos hd, Nat.ofDigitChars_cons, ← ih (fun c h => hl c (by simp [h]))]
    congr 1

theorem repr_isDigit (n : Nat) : ∀ c ∈ n.repr.toList, c.isDigit := by
  intro c hc
  rw [Nat.toList_repr] at hc
  exact Nat.isDigit_of_mem_toDigits (by decide) (by decide) hc

theorem atoi_repr {n : Nat} (h : n < 2 ^ 31) : atoi n.repr = some (n : Int) := by
  have hd := repr_isDigit n
  have hne : n.repr.toList ≠ [] := by
    rw [Nat.toList_repr]
    exact Nat.toDigits_ne_nil
  have hv : digits 0 n.repr.toList = n := by
    have := digits_eq _ hd 0
    rw [Nat.toList_repr, Nat.ofDigitChars_ten_toDigits] at this
    rw [Nat.toList_repr]
    exact_mod_cast this
  unfold atoi
  rcases hl : n.repr.toList with _ | ⟨c, l⟩
  · exact absurd hl hne
  · rw [hl] at hd hv
    have hc := hd c (by simp)
    have hs : isSpace c = false := by
      by_contra hs
      simp only [isSpace, Bool.not_eq_false, decide_eq_true_eq] at hs
      revert hc
      rcases hs with h | h | h | h | h | h <;> (subst h; decide)
    rw [List.dropWhile_cons_of_neg (by rw [hs]; simp)]
    have hm : c ≠ '-' := by rintro rfl; revert hc; decide
    have hp : c ≠ '+' := by rintro rfl; revert hc; decide
    split
    · rename_i h; exact absurd (List.cons.inj h).1 hm
    · rename_i h; exact absurd (List.cons.inj h).1 hp
    · rw [hv]
      exact ck_eq (fits_of (by omega) (by omega))

/-- A number is not a word. -/
theorem repr_ne {n : Nat} {s : String} {c : Char} (hc : c ∈ s.toList) (hd : c.isDigit = false) : n.repr ≠ s := by
  intro h
  have := repr_isDigit n c (by rw [h]; exact hc)
  rw [hd] at this
  cases this

/-! ## One option -/

theorem argLoop_step {n iarg i : Nat} {o o' : Cmd} (hi : iarg < args.length)
    (h : argStep three neg me args iarg o = some (.ok (i, o'))) :
    argLoop three neg me args (n + 1) iarg o = argLoop three neg me args n i o' := by
  rw [argLoop, if_pos hi, h]

theorem argLoop_end {n iarg : Nat} {o : Cmd} (hi : args.length ≤ iarg) :
    argLoop three neg me args (n + 1) iarg o = some (.ok o) := by
  rw [argLoop, if_neg (by omega)]

theorem num_of {i n : Nat} (h : args[i]? = some n.repr) (hn : n < 2 ^ 31) : num args i = some (n : Int) := by
  unfold num argv
  rw [h, Option.bind_some, atoi_repr hn]

theorem gridCheck3_of {p : Nat × Nat × Nat} (h : GridArg3 p P) (hP : 0 < P) (hP' : P < 2 ^ 31) :
    gridCheck true P p.1 p.2.1 p.2.2 = some none := by
  rcases h with rfl | h
  · rfl
  · obtain ⟨x, y, z⟩ := p
    dsimp only at h ⊢
    have hx : 0 < x := Nat.pos_of_ne_zero (by rintro rfl; simp at h; omega)
    have hy : 0 < y := Nat.pos_of_ne_zero (by rintro rfl; simp at h; omega)
    have hz : 0 < z := Nat.pos_of_ne_zero (by rintro rfl; simp at h; omega)
    have hxy : x * y ≤ P := by rw [← h]; exact Nat.le_mul_of_pos_right _ hz
    have e1 : mul32 (x : Int) y = some ((x * y : Nat) : Int) := by
      rw [Int.natCast_mul]
      refine mul32_eq ?_
      rw [← Int.natCast_mul]
      exact fits_of (by omega) (by omega)
    have e2 : mul32 ((x * y : Nat) : Int) z = some (P : Int) := by
      rw [← h, Int.natCast_mul (x * y) z]
      refine mul32_eq ?_
      rw [← Int.natCast_mul, h]
      exact fits_of (by omega) (by omega)
    unfold gridCheck
    rw [if_neg (by omega), if_neg (by omega), e1, Option.bind_some, if_pos rfl, e2]
    simp

theorem gridCheck2_of {p : Nat × Nat} (h : GridArg2 p P) (hP : 0 < P) (hP' : P < 2 ^ 31) :
    gridCheck false P p.1 p.2 0 = some none := by
  rcases h with rfl | h
  · rfl
  · obtain ⟨x, y⟩ := p
    dsimp only at h ⊢
    have hx : 0 < x := Nat.pos_of_ne_zero (by rintro rfl; simp at h; omega)
    have hy : 0 < y := Nat.pos_of_ne_zero (by rintro rfl; simp at h; omega)
    have e1 : mul32 (x : Int) y = some (P : Int) := by
      rw [← h, Int.natCast_mul]
      refine mul32_eq ?_
      rw [← Int.natCast_mul, h]
      exact fits_of (by omega) (by omega)
    unfold gridCheck
    rw [if_neg (by omega), if_neg (by simp; omega), e1, Option.bind_some, if_neg (by decide)]
    simp

theorem grid3_step {iarg a b d : Nat} {f : Int → Int → Int → Cmd} (hi : iarg + 4 ≤ args.length)
    (ha : args[iarg + 1]? = some a.repr) (hb : args[iarg + 2]? = some b.repr) (hd : args[iarg + 3]? = some d.repr)
    (la : a < 2 ^ 31) (lb : b < 2 ^ 31) (ld : d < 2 ^ 31) :
    grid true args iarg f = some (.ok (iarg + 4, f a b d)) := by
  unfold grid
  rw [if_pos rfl, if_neg (by omega), num_of ha la, num_of hb lb, num_of hd ld]
  rfl

theorem grid2_step {iarg a b : Nat} {f : Int → Int → Int → Cmd} (hi : iarg + 3 ≤ args.length)
    (ha : args[iarg + 1]? = some a.repr) (hb : args[iarg + 2]? = some b.repr)
    (la : a < 2 ^ 31) (lb : b < 2 ^ 31) :
    grid false args iarg f = some (.ok (iarg + 3, f a b 0)) := by
  unfold grid
  rw [if_neg (by decide), if_neg (by omega), num_of ha la, num_of hb lb]
  rfl

theorem one_step {iarg a : Nat} {f : Int → Cmd} (hi : iarg + 2 ≤ args.length)
    (ha : args[iarg + 1]? = some a.repr) (la : a < 2 ^ 31) : one args iarg f = some (.ok (iarg + 2, f a)) := by
  unfold one
  rw [if_neg (by omega), num_of ha la]
  rfl

theorem choice_step {iarg : Nat} {s : String} {l : List (String × Cmd)} {o : Cmd} (hi : iarg + 2 ≤ args.length)
    (ha : args[iarg + 1]? = some s) (hl : l.lookup s = some o) : choice args iarg l = some (.ok (iarg + 2, o)) := by
  unfold choice argv
  rw [if_neg (by omega), ha]
  simp [hl]

/-- What the last option `-r` does. -/
theorem r_step {n iarg r : Nat} {o : Cmd} {b : Bool} (hl : args.length = iarg + (if b then 1 else 0))
    (ha : b = true → args[iarg]? = some "-r") (ho : o.rflag = false) :
    argLoop three neg r args (n + 2) iarg o = some (.ok { o with rflag := b }) := by
  cases b with
  | false =>
    rw [argLoop_end (by simpa using hl.le), ← ho]
  | true =>
    rw [if_pos rfl] at hl
    have : argStep three neg r args iarg o = some (.ok (iarg + 1, { o with rflag := true })) := by
      unfold argStep argv
      rw [ha rfl]
      rfl
    rw [argLoop_step (by omega) this, argLoop_end (by omega)]

/-! ## The words -/

section
variable {iarg : Nat} {o : Cmd}

theorem word_g (h : args[iarg]? = some "-g") : argStep three neg me args iarg o =
      grid three args iarg fun x y z => { o with nx := x, ny := y, nz := z } := by
  unfold argStep argv
  rw [h]
  rfl

theorem word_pin (h : args[iarg]? = some "-pin") : argStep three neg me args iarg o =
      grid three args iarg fun x y z => { o with inpx := x, inpy := y, inpz := z } := by
  unfold argStep argv
  rw [h]
  rfl

theorem word_pout (h : args[iarg]? = some "-pout") : argStep three neg me args iarg o =
      grid three args iarg fun x y z => { o with outpx := x, outpy := y, outpz := z } := by
  unfold argStep argv
  rw [h]
  rfl

theorem word_n (h : args[iarg]? = some "-n") : argStep three neg me args iarg o =
      one args iarg fun x => { o with nloop := x } := by
  unfold argStep argv
  rw [h]
  rfl

theorem word_i (h : args[iarg]? = some "-i") : argStep three neg me args iarg o =
      initArg me args iarg o := by
  unfold argStep argv
  rw [h]
  rfl

theorem word_m (h : args[iarg]? = some "-m") : argStep three neg me args iarg o =
      one args iarg fun x => { o with mode := x } := by
  unfold argStep argv
  rw [h]
  rfl

theorem word_c (h : args[iarg]? = some "-c") : argStep three neg me args iarg o =
      choice args iarg [("point", { o with cflag := 0 }), ("all", { o with cflag := 1 }),
        ("combo", { o with cflag := 2 })] := by
  unfold argStep argv
  rw [h]
  rfl

theorem word_e (h : args[iarg]? = some "-e") : argStep three neg me args iarg o =
      choice args iarg [("pencil", { o with eflag := 0 }), ("brick", { o with eflag := 1 })] := by
  unfold argStep argv
  rw [h]
  rfl

theorem word_p (h : args[iarg]? = some "-p") : argStep three neg me args iarg o =
      choice args iarg [("array", { o with pflag := 0 }), ("ptr", { o with pflag := 1 }),
        ("memcpy", { o with pflag := 2 })] := by
  unfold argStep argv
  rw [h]
  rfl

end

end Driver

end FftMpi
