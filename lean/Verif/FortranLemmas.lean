import Verif.Fortran

/-!
# Lemmas about the Fortran interface

The specification of what C is to receive, and of strings in memory, with the lemmas for both.
-/

namespace FftMpi

namespace Fortran

/-! ## Specification -/

/-- The value of an actual argument. -/
def Denotes (m : Mem Slot) : Actual → CVal → Prop
  | .int n, v => v = .int n
  | .real q, v => v = .real q
  | .ptr a, v => v = .addr a
  | .var a t, v => ∃ s, m a = some s ∧ s.val t = some v
  | .chars _, _ => False

/-- The actual argument is one for a parameter of this type: a number, a pointer, a variable for the result, a string. -/
def Fits (m : Mem Slot) : PTy → Actual → Prop
  | .int, x => ∃ n, Denotes m x (.int n)
  | .double, x => ∃ q, Denotes m x (.real q)
  | .voidp, x => ∃ a, Denotes m x (.addr a)
  | .scalar, x => ∃ a, Denotes m x (.addr a)
  | .out, x => ∃ a, x = .var a .int
  | .outptr, x => ∃ a, x = .var a .ptr
  | .str, x => ∃ a, x = .chars a

/-- What C is to receive: the number, the pointer itself, the address of the variable, the address of the first
character. -/
def Wanted (m : Mem Slot) : PTy → Actual → CVal → Prop
  | .int, x, v => Denotes m x v
  | .double, x, v => Denotes m x v
  | .voidp, x, v => Denotes m x v
  | .scalar, x, v => Denotes m x v
  | .out, x, v => ∃ a, x = .var a .int ∧ v = .addr a
  | .outptr, x, v => ∃ a, x = .var a .ptr ∧ v = .addr a
  | .str, x, v => ∃ a, x = .chars a ∧ v = .addr a

/-- For all parameters. -/
def FitsAll (m : Mem Slot) : List Param → List Actual → Prop
  | [], [] => True
  | p :: ps, x :: xs => Fits m p.ty x ∧ FitsAll m ps xs
  | _, _ => False

/-- For all parameters. -/
def WantedAll (m : Mem Slot) : List Param → List Actual → List CVal → Prop
  | [], [], [] => True
  | p :: ps, x :: xs, v :: vs => Wanted m p.ty x v ∧ WantedAll m ps xs vs
  | _, _, _ => False

/-- The dummy argument and the parameter have the same name, up to the endings used in the C++ files. -/
def sameName (d p : String) : Bool := d = p || p = d ++ "_caller" || (d = "comm" && p = "fcomm")

/-- For all arguments: as many dummies as parameters, with the same names in the same order. -/
def sameNames : List Dummy → List Param → Bool
  | [], [] => true
  | d :: ds, p :: ps => sameName d.name p.name && sameNames ds ps
  | _, _ => false

/-- The memory has the characters of a C string at `a`: none of them is NUL, and a NUL follows. -/
def Str (m : Mem Char) : Int → List Char → Prop
  | a, [] => m a = some '\x00'
  | a, c :: r => m a = some c ∧ c ≠ '\x00' ∧ Str m (a + 1) r

/-- The memory has these characters at `a`; nothing is said about what follows. -/
def Chars (m : Mem Char) : Int → List Char → Prop
  | _, [] => True
  | a, c :: r => m a = some c ∧ Chars m (a + 1) r

/-! ## Lemmas -/

/-- The dummy argument hands over what a parameter of this type needs. -/
def compatible : Dummy → PTy → Bool
  | ⟨_, .int, true⟩, .int => true
  | ⟨_, .real, true⟩, .double => true
  | ⟨_, .ptr, true⟩, .voidp => true
  | ⟨_, .ptr, true⟩, .scalar => true
  | ⟨_, .int, false⟩, .out => true
  | ⟨_, .ptr, false⟩, .outptr => true
  | ⟨_, .chars, false⟩, .str => true
  | _, _ => false

def compatibles : List Dummy → List Param → Bool
  | [], [] => true
  | d :: ds, p :: ps => compatible d p.ty && compatibles ds ps
  | _, _ => false

theorem pass_ok {m : Mem Slot} {tmp : Int} {d : Dummy} {t : PTy} {x : Actual} (hc : compatible d t = true)
    (hx : Fits m t x) : ∃ v, pass m tmp d x = some (v, m, tmp) ∧ Wanted m t x v := by
  obtain ⟨name, ty, value⟩ := d
  cases ty <;> cases value <;> cases t <;> simp [compatible] at hc <;> simp only [Fits] at hx
  case int.false.out =>
    obtain ⟨a, rfl⟩ := hx
    exact ⟨.addr a, by simp [pass], a, rfl, rfl⟩
  case ptr.false.outptr =>
    obtain ⟨a, rfl⟩ := hx
    exact ⟨.addr a, by simp [pass], a, rfl, rfl⟩
  case chars.false.str =>
    obtain ⟨a, rfl⟩ := hx
    exact ⟨.addr a, by simp [pass], a, rfl, rfl⟩
  all_goals
    obtain ⟨n, hn⟩ := hx
    refine ⟨_, ?_, hn⟩
    cases x with
    | int k => simp only [Denotes] at hn; simp_all [pass]
    | real k => simp only [Denotes] at hn; simp_all [pass]
    | ptr k => simp only [Denotes] at hn; simp_all [pass]
    | chars k => exact hn.elim
    | var a t =>
      obtain ⟨s, h1, h2⟩ := hn
      cases s <;> cases t <;> simp [Slot.val] at h2 <;> subst h2 <;> simp [pass, h1, Slot.val]

theorem passAll_ok {m : Mem Slot} {tmp : Int} {ds : List Dummy} {ps : List Param} {xs : List Actual}
    (hc : compatibles ds ps = true) (hx : FitsAll m ps xs) :
    ∃ vs, passAll m tmp ds xs = some (vs, m, tmp) ∧ WantedAll m ps xs vs := by
  induction ds generalizing ps xs with
  | nil =>
    cases ps with
    | nil =>
      cases xs with
      | nil => exact ⟨[], rfl, trivial⟩
      | cons x xs => exact hx.elim
    | cons p ps => simp [compatibles] at hc
  | cons d ds ih =>
    cases ps with
    | nil => simp [compatibles] at hc
    | cons p ps =>
      cases xs with
      | nil => exact hx.elim
      | cons x xs =>
        simp only [compatibles, Bool.and_eq_true] at hc
        obtain ⟨v, h1, h2⟩ := pass_ok (tmp := tmp) hc.1 hx.1
        obtain ⟨vs, h3, h4⟩ := ih hc.2 hx.2
        exact ⟨v :: vs, by simp [passAll, h1, h3], h2, h4⟩

theorem strEq_str {m : Mem Char} {a : Int} {s l : List Char} (hs : Str m a s) (hl : ∀ c ∈ l, c ≠ '\x00') :
    strEq m a l = some (decide (s = l)) := by
  induction l generalizing a s with
  | nil =>
    cases s with
    | nil => simp [strEq, show m a = _ from hs]
    | cons c r => simp [strEq, hs.1, hs.2.1]
  | cons d l ih =>
    cases s with
    | nil =>
      have := hl d (by simp)
      simp [strEq, show m a = _ from hs, this.symm]
    | cons c r =>
      by_cases h : c = d
      · subst h
        simp [strEq, hs.1, ih hs.2.2 fun x hx => hl x (by simp [hx])]
      · simp [strEq, hs.1, h]

theorem pick_step {α : Type} {m : Mem Char} {a : Int} {s : String} (hs : Str m a s.toList) {k : String} {v e : α}
    {r : List (String × α)} {d : α} (hk : ∀ c ∈ k.toList, c ≠ '\x00') (hr : pick m a r d = some e) :
    pick m a ((k, v) :: r) d = some (if s = k then v else e) := by
  simp only [pick, strEq_str hs hk, String.toList_inj]
  by_cases h : s = k <;> simp [h, hr]

end Fortran

end FftMpi
