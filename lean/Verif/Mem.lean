import Mathlib.Logic.Function.Basic
import Mathlib.Data.List.Basic
import Mathlib.Data.List.Nodup
import Mathlib.Tactic.Ring
import Mathlib.Tactic.Linarith

/-!
# Memories, loops and copies

The model of C memory used everywhere: an array is a partial function from (signed) indices
to values.  An index that maps to `none` lies outside the allocation (or is currently owned by
the MPI library), and touching it is undefined behaviour, represented by the distinct outcome
`none` of the operation.
-/

namespace FftMpi

/-- One allocated array.  `m a = none` means: index `a` may not be accessed.
Models every `FFT_SCALAR *` / `PACK_DATA *` array (fftdata.h, pack3d.h:36-38).
Simplification: C integers and indices are unbounded `Int`. -/
abbrev Mem (α : Type) := Int → Option α

variable {α : Type} {σ γ : Type}

/-- `m[a] = v`; undefined behaviour (`none`) when `a` is outside the allocation. -/
def Mem.set (m : Mem α) (a : Int) (v : α) : Option (Mem α) :=
  if (m a).isSome then some (Function.update m a (some v)) else none

/-- `dst[d] = src[s]` for two different arrays. -/
def copy1 (src dst : Mem α) (d s : Int) : Option (Mem α) :=
  (src s).bind fun v => dst.set d v

/-- A C array of `n` elements, all initialised with `f`. -/
def Mem.ofFn (n : Int) (f : Int → α) : Mem α := fun a => if 0 ≤ a ∧ a < n then some (f a) else none

/-! ## Loops -/

/-- `k` iterations with loop variable `i, i+1, ...`. -/
def forFrom (i : Int) : Nat → (Int → σ → Option σ) → σ → Option σ
  | 0, _, s => some s
  | k+1, body, s => (body i s).bind fun s' => forFrom (i+1) k body s'

/-- The C loop `for (i = 0; i < n; i++) body`. -/
def forN (n : Int) (body : Int → σ → Option σ) (s : σ) : Option σ :=
  forFrom 0 n.toNat body s

/-- The C loop `for (p = begin; p < end; p += stride) body`.
With a stride `≤ 0` and a non-empty range the C loop never terminates; that is the outcome
`none`. -/
def forPtr (p e st : Int) (body : Int → σ → Option σ) (s : σ) : Option σ :=
  if _h : p < e then
    if _hs : 0 < st then
      (body p s).bind fun s' => forPtr (p+st) e st body s'
    else none
  else some s
termination_by (e - p).toNat
decreasing_by omega

/-- `memcpy(&dst[d], &src[s], n*sizeof(element))`, `n` in elements.
A negative byte count is converted to a huge `size_t` in C: undefined behaviour. -/
def memcpyM (src dst : Mem α) (d s n : Int) : Option (Mem α) :=
  if n < 0 then none else forN n (fun t m => copy1 src m (d+t) (s+t)) dst

/-! ## Copy lists -/

/-- Execute a list of copies `dst[d] = src[s]`, in order. -/
def copyAll : List (Int × Int) → Mem α → Mem α → Option (Mem α)
  | [], _, dst => some dst
  | (d, s) :: ps, src, dst => (copy1 src dst d s).bind fun dst' => copyAll ps src dst'

theorem copyAll_append (ps qs : List (Int × Int)) (src dst : Mem α) :
    copyAll (ps ++ qs) src dst = (copyAll ps src dst).bind fun d => copyAll qs src d := by
  induction ps generalizing dst with
  | nil => simp [copyAll]
  | cons p ps ih =>
    obtain ⟨d, s⟩ := p
    simp only [List.cons_append, copyAll]
    cases copy1 src dst d s with
    | none => simp
    | some m => simp [ih]

@[simp] theorem copyAll_nil (src dst : Mem α) : copyAll [] src dst = some dst := rfl

theorem copyAll_single (src dst : Mem α) (d s : Int) :
    copyAll [(d, s)] src dst = copy1 src dst d s := by
  simp [copyAll]

theorem Mem.set_eq {m : Mem α} {a : Int} {v : α} (h : (m a).isSome) :
    m.set a v = some (Function.update m a (some v)) := by simp [Mem.set, h]

/-- Domain of a memory: which indices may be accessed. -/
def Mem.dom (m : Mem α) (a : Int) : Bool := (m a).isSome

theorem set_dom {m m' : Mem α} {a : Int} {v : α} (h : m.set a v = some m') (b : Int) :
    (m' b).isSome = (m b).isSome := by
  unfold Mem.set at h
  split at h
  · cases h
    by_cases hb : b = a
    · subst hb; simp_all
    · simp [Function.update, hb]
  · cases h

theorem copyAll_dom {ps : List (Int × Int)} {src dst dst' : Mem α}
    (h : copyAll ps src dst = some dst') (b : Int) : (dst' b).isSome = (dst b).isSome := by
  induction ps generalizing dst with
  | nil => simp at h; subst h; rfl
  | cons p ps ih =>
    obtain ⟨d, s⟩ := p
    simp only [copyAll, copy1] at h
    cases hs : src s with
    | none => simp [hs] at h
    | some v =>
      simp only [hs, Option.bind_some] at h
      cases hm : dst.set d v with
      | none => simp [hm] at h
      | some m =>
        simp only [hm, Option.bind_some] at h
        rw [ih h, set_dom hm]

/-- A copy list with distinct destinations does what one expects: it succeeds when every
address is accessible, every destination gets its source value, nothing else changes. -/
theorem copyAll_spec (ps : List (Int × Int)) (src dst : Mem α)
    (hn : (ps.map Prod.fst).Nodup)
    (hs : ∀ p ∈ ps, (src p.2).isSome) (hd : ∀ p ∈ ps, (dst p.1).isSome) :
    ∃ dst', copyAll ps src dst = some dst' ∧ (∀ p ∈ ps, dst' p.1 = src p.2) ∧
      (∀ a, a ∉ ps.map Prod.fst → dst' a = dst a) := by
  induction ps generalizing dst with
  | nil => exact ⟨dst, rfl, by simp, by simp⟩
  | cons p ps ih =>
    obtain ⟨d, s⟩ := p
    have h1 := hs (d, s) (by simp)
    have h2 := hd (d, s) (by simp)
    obtain ⟨v, hv⟩ := Option.isSome_iff_exists.mp h1
    simp only at hv h2
    simp only [List.map_cons, List.nodup_cons] at hn
    obtain ⟨dst', hc, hp, hf⟩ := ih (Function.update dst d (some v)) hn.2
      (fun p hp => hs p (by simp [hp]))
      (fun p hp => by
        by_cases e : p.1 = d
        · simp [e]
        · simp only [Function.update, e, dite_false]
          exact hd p (by simp [hp]))
    refine ⟨dst', ?_, ?_, ?_⟩
    · simp [copyAll, copy1, hv, Mem.set_eq h2, hc]
    · intro p hp'
      rcases List.mem_cons.mp hp' with rfl | hp'
      · rw [hf d hn.1]; simp [hv]
      · exact hp p hp'
    · intro a ha
      simp only [List.map_cons, List.mem_cons, not_or] at ha
      rw [hf a ha.2]
      simp [Function.update, ha.1]

/-- If a copy list succeeds every source and every destination was accessible. -/
theorem copyAll_some {ps : List (Int × Int)} {src dst dst' : Mem α}
    (h : copyAll ps src dst = some dst') :
    ∀ p ∈ ps, (src p.2).isSome ∧ (dst p.1).isSome := by
  induction ps generalizing dst with
  | nil => simp
  | cons p ps ih =>
    obtain ⟨d, s⟩ := p
    simp only [copyAll, copy1] at h
    cases hs : src s with
    | none => simp [hs] at h
    | some v =>
      simp only [hs, Option.bind_some] at h
      cases hm : dst.set d v with
      | none => simp [hm] at h
      | some m =>
        simp only [hm, Option.bind_some] at h
        intro p hp
        rcases List.mem_cons.mp hp with rfl | hp
        · refine ⟨by simp [hs], ?_⟩
          unfold Mem.set at hm
          split at hm
          · assumption
          · cases hm
        · have := ih h p hp
          rwa [set_dom hm] at this

/-- The result of a copy list only depends on the source at the addresses it reads. -/
theorem copyAll_src_congr (ps : List (Int × Int)) (src src' dst : Mem α)
    (h : ∀ p ∈ ps, src p.2 = src' p.2) : copyAll ps src dst = copyAll ps src' dst := by
  induction ps generalizing dst with
  | nil => rfl
  | cons p ps ih =>
    obtain ⟨d, s⟩ := p
    have := h (d, s) (by simp)
    simp only at this
    simp only [copyAll, copy1, this]
    congr 1
    funext m
    exact ih m (fun p hp => h p (by simp [hp]))

/-! ## Turning loops into copy lists -/

/-- Copies made by `k` iterations of a loop whose body makes the copies `L i c` and then
moves its counters from `c` to `g i c`. -/
def loopPairs (L : Int → γ → List (Int × Int)) (g : Int → γ → γ) (i : Int) :
    Nat → γ → List (Int × Int)
  | 0, _ => []
  | k+1, c => L i c ++ loopPairs L g (i+1) k (g i c)

/-- The counters after `k` iterations. -/
def loopCnt (g : Int → γ → γ) (i : Int) : Nat → γ → γ
  | 0, c => c
  | k+1, c => loopCnt g (i+1) k (g i c)

theorem forFrom_copyAll (src : Mem α) (body : Int → γ × Mem α → Option (γ × Mem α))
    (L : Int → γ → List (Int × Int)) (g : Int → γ → γ)
    (hb : ∀ i c m, body i (c, m) = (copyAll (L i c) src m).map fun m' => (g i c, m'))
    (i : Int) (k : Nat) (c : γ) (m : Mem α) :
    forFrom i k body (c, m) =
      (copyAll (loopPairs L g i k c) src m).map fun m' => (loopCnt g i k c, m') := by
  induction k generalizing i c m with
  | zero => simp [forFrom, loopPairs, loopCnt]
  | succ k ih =>
    simp only [forFrom, loopPairs, loopCnt, hb, copyAll_append]
    cases copyAll (L i c) src m with
    | none => simp
    | some m' => simp [ih]

/-- A pointer loop over `n` strides is the counted loop with `n` iterations. -/
theorem forPtr_eq (begin st : Int) (n : Nat) (hs : 0 < st) (body : Int → σ → Option σ) (s : σ) :
    forPtr begin (begin + n * st) st body s =
      forFrom 0 n (fun t => body (begin + t * st)) s := by
  have key : ∀ (n : Nat) (i : Int) (s : σ),
      forPtr (begin + i * st) (begin + (i + n) * st) st body s =
        forFrom i n (fun t => body (begin + t * st)) s := by
    intro n
    induction n with
    | zero => intro i s; unfold forPtr; simp [forFrom]
    | succ n ih =>
      intro i s
      unfold forPtr
      have hlt : begin + i * st < begin + (i + (n + 1 : Nat)) * st := by
        push_cast
        have : (0:Int) ≤ n * st := mul_nonneg (by omega) (le_of_lt hs)
        nlinarith
      simp only [hlt, hs, dite_true, forFrom]
      congr 1
      funext s'
      have := ih (i+1) s'
      rw [← this]
      congr 1
      · ring
      · push_cast; ring
  have := key n 0 s
  simpa using this

end FftMpi
