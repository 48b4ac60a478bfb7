import Verif.RemapWorks

/-!
# Lists of grid points in buffer order
-/

namespace FftMpi

variable {α : Type}

theorem packL_irangeN (c : Int) (n : Nat) (g : Int → Int) :
    packL c ((irangeN n).map g) = (irangeN n).map fun t => (c + t, g t) := by
  induction n generalizing c g with
  | zero => rfl
  | succ n ih =>
    simp only [irangeN_succ, List.map_cons, packL, List.map_map, add_zero]
    rw [ih (c + 1) (g ∘ (· + 1))]
    congr 1
    apply List.map_congr_left
    intro t _
    simp only [Function.comp, Prod.mk.injEq, and_true]; ring

theorem unpL_irangeN (c : Int) (n : Nat) (g : Int → Int) :
    unpL c ((irangeN n).map g) = (irangeN n).map fun t => (g t, c + t) := by
  induction n generalizing c g with
  | zero => rfl
  | succ n ih =>
    simp only [irangeN_succ, List.map_cons, unpL, List.map_map, add_zero]
    rw [ih (c + 1) (g ∘ (· + 1))]
    congr 1
    apply List.map_congr_left
    intro t _
    simp only [Function.comp, Prod.mk.injEq, true_and]; ring

theorem packL_flatMap_irangeN (c : Int) (n : Nat) (w : Int) (L : Int → List Int)
    (h : ∀ t, ((L t).length : Int) = w) :
    packL c ((irangeN n).flatMap L) = (irangeN n).flatMap fun t => packL (c + t * w) (L t) := by
  induction n generalizing c L with
  | zero => rfl
  | succ n ih =>
    simp only [irangeN_succ, List.flatMap_cons, List.flatMap_map, packL_append, zero_mul, add_zero]
    rw [ih _ (fun t => L (t + 1)) (fun t => h _), h 0]
    congr 1
    congr 1
    funext t
    congr 1
    ring

theorem unpL_flatMap_irangeN (c : Int) (n : Nat) (w : Int) (L : Int → List Int)
    (h : ∀ t, ((L t).length : Int) = w) :
    unpL c ((irangeN n).flatMap L) = (irangeN n).flatMap fun t => unpL (c + t * w) (L t) := by
  induction n generalizing c L with
  | zero => rfl
  | succ n ih =>
    simp only [irangeN_succ, List.flatMap_cons, List.flatMap_map, unpL_append, zero_mul, add_zero]
    rw [ih _ (fun t => L (t + 1)) (fun t => h _), h 0]
    congr 1
    congr 1
    funext t
    congr 1
    ring

theorem packL_irange (c n : Int) (g : Int → Int) :
    packL c ((irange n).map g) = (irange n).map fun t => (c + t, g t) := packL_irangeN _ _ _

theorem unpL_irange (c n : Int) (g : Int → Int) :
    unpL c ((irange n).map g) = (irange n).map fun t => (g t, c + t) := unpL_irangeN _ _ _

theorem packL_flatMap_irange (c n w : Int) (L : Int → List Int) (h : ∀ t, ((L t).length : Int) = w) :
    packL c ((irange n).flatMap L) = (irange n).flatMap fun t => packL (c + t * w) (L t) :=
  packL_flatMap_irangeN _ _ _ _ h

theorem unpL_flatMap_irange (c n w : Int) (L : Int → List Int) (h : ∀ t, ((L t).length : Int) = w) :
    unpL c ((irange n).flatMap L) = (irange n).flatMap fun t => unpL (c + t * w) (L t) :=
  unpL_flatMap_irangeN _ _ _ _ h

theorem irange_length {n : Int} (h : 0 ≤ n) : ((irange n).length : Int) = n := by
  simp only [irange, irangeN, List.length_map, List.length_range]; omega

theorem length_flatMap_irange (n w : Int) {β : Type} (L : Int → List β) (hn : 0 ≤ n)
    (h : ∀ t, ((L t).length : Int) = w) : (((irange n).flatMap L).length : Int) = n * w := by
  have key : ∀ k : Nat, ∀ L : Int → List β, (∀ t, ((L t).length : Int) = w) →
      (((irangeN k).flatMap L).length : Int) = k * w := by
    intro k
    induction k with
    | zero => intro L _; simp
    | succ k ih =>
      intro L h
      simp only [irangeN_succ, List.flatMap_cons, List.flatMap_map, List.length_append]
      push_cast
      rw [ih _ (fun t => h _), h 0]; ring
  have := key n.toNat L h
  rw [irange, this]
  congr 1; omega

theorem irangeN_add (a b : Nat) : irangeN (a + b) = irangeN a ++ (irangeN b).map (· + (a : Int)) := by
  simp only [irangeN, List.range_add, List.map_append, List.map_map]
  congr 1
  apply List.map_congr_left
  intro t _
  simp; ring

/-- One loop over `q*n` is a loop over `n` around a loop over `q`. -/
theorem irange_mul (q n : Int) (hq : 0 ≤ q) (hn : 0 ≤ n) :
    irange (q * n) = (irange n).flatMap fun x => (irange q).map fun t => q * x + t := by
  obtain ⟨k, rfl⟩ := Int.eq_ofNat_of_zero_le hn
  obtain ⟨p, rfl⟩ := Int.eq_ofNat_of_zero_le hq
  have e : ((p : Int) * k).toNat = k * p := by
    rw [← Int.natCast_mul, Int.toNat_natCast, Nat.mul_comm]
  simp only [irange, e, Int.toNat_natCast]
  clear e hn hq
  induction k with
  | zero => simp
  | succ k ih =>
    have e2 : irangeN (k + 1) = irangeN k ++ [(k : Int)] := by
      simp [irangeN, List.range_succ]
    rw [e2, List.flatMap_append, ← ih, Nat.succ_mul, irangeN_add]
    simp only [List.flatMap_cons, List.flatMap_nil, List.append_nil]
    congr 1
    apply List.map_congr_left
    intro t _
    push_cast; ring

/-- Value `q` of the point with relative coordinates `x, y, z`, in buffer order: `q` fastest, then
`x`, `y`, `z`. -/
def relPts (nx ny nz nq : Int) : List (Int × Int × Int × Int) :=
  (irange nz).flatMap fun z => (irange ny).flatMap fun y => (irange nx).flatMap fun x =>
    (irange nq).map fun q => (x, y, z, q)

theorem mem_relPts {nx ny nz nq : Int} {p : Int × Int × Int × Int} :
    p ∈ relPts nx ny nz nq ↔ (0 ≤ p.1 ∧ p.1 < nx) ∧ (0 ≤ p.2.1 ∧ p.2.1 < ny) ∧
      (0 ≤ p.2.2.1 ∧ p.2.2.1 < nz) ∧ (0 ≤ p.2.2.2 ∧ p.2.2.2 < nq) := by
  obtain ⟨x, y, z, q⟩ := p
  simp only [relPts, List.mem_flatMap, List.mem_map, mem_irange, Prod.mk.injEq]
  constructor
  · rintro ⟨z, hz, y, hy, x, hx, q, hq, rfl, rfl, rfl, rfl⟩
    exact ⟨hx, hy, hz, hq⟩
  · rintro ⟨hx, hy, hz, hq⟩
    exact ⟨z, hz, y, hy, x, hx, q, hq, rfl, rfl, rfl, rfl⟩

theorem relPts_nodup (nx ny nz nq : Int) : (relPts nx ny nz nq).Nodup := by
  unfold relPts
  rw [List.nodup_flatMap]
  refine ⟨fun z _ => ?_, ?_⟩
  · rw [List.nodup_flatMap]
    refine ⟨fun y _ => ?_, ?_⟩
    · rw [List.nodup_flatMap]
      refine ⟨fun x _ => ?_, ?_⟩
      · exact (irange_nodup _).map (fun a b h => by simpa using h)
      · refine (irange_nodup _).imp ?_
        intro a b hab p h1 h2
        simp only [List.mem_map] at h1 h2
        obtain ⟨_, _, rfl⟩ := h1
        obtain ⟨_, _, h⟩ := h2
        simp only [Prod.mk.injEq] at h
        exact hab h.1.symm
    · refine (irange_nodup _).imp ?_
      intro a b hab p h1 h2
      simp only [List.mem_map, List.mem_flatMap] at h1 h2
      obtain ⟨_, _, _, _, rfl⟩ := h1
      obtain ⟨_, _, _, _, h⟩ := h2
      simp only [Prod.mk.injEq] at h
      exact hab h.2.1.symm
  · refine (irange_nodup _).imp ?_
    intro a b hab p h1 h2
    simp only [List.mem_map, List.mem_flatMap] at h1 h2
    obtain ⟨_, _, _, _, _, _, rfl⟩ := h1
    obtain ⟨_, _, _, _, _, _, h⟩ := h2
    simp only [Prod.mk.injEq] at h
    exact hab h.2.2.1.symm

theorem relPts_length (nx ny nz nq : Int) (hx : 0 ≤ nx) (hy : 0 ≤ ny) (hz : 0 ≤ nz) (hq : 0 ≤ nq) :
    ((relPts nx ny nz nq).length : Int) = nz * (ny * (nx * nq)) := by
  unfold relPts
  rw [length_flatMap_irange _ (ny * (nx * nq)) _ hz]
  intro z
  rw [length_flatMap_irange _ (nx * nq) _ hy]
  intro y
  rw [length_flatMap_irange _ nq _ hx]
  intro x
  simp [irange_length hq]

theorem map_relPts (nx ny nz nq : Int) {β : Type} (g : Int → Int → Int → Int → β) :
    (relPts nx ny nz nq).map (fun p => g p.1 p.2.1 p.2.2.1 p.2.2.2) =
    (irange nz).flatMap fun z => (irange ny).flatMap fun y => (irange nx).flatMap fun x =>
      (irange nq).map fun q => g x y z q := by
  simp [relPts, List.map_flatMap, Function.comp_def]

theorem packL_relPts (c : Int) (nx ny nz nq : Int) (hx : 0 ≤ nx) (hy : 0 ≤ ny) (hq : 0 ≤ nq)
    (g : Int → Int → Int → Int → Int) :
    packL c ((relPts nx ny nz nq).map fun p => g p.1 p.2.1 p.2.2.1 p.2.2.2) =
      (irange nz).flatMap fun z => (irange ny).flatMap fun y => (irange nx).flatMap fun x =>
        (irange nq).map fun q => (c + (((z * ny + y) * nx + x) * nq + q), g x y z q) := by
  rw [map_relPts]
  rw [packL_flatMap_irange c nz (ny * (nx * nq))]
  · congr 1; funext z
    rw [packL_flatMap_irange _ ny (nx * nq)]
    · congr 1; funext y
      rw [packL_flatMap_irange _ nx nq]
      · congr 1; funext x
        rw [packL_irange]
        congr 1; funext q
        congr 1; ring
      · intro t; simp [irange_length hq]
    · intro t; rw [length_flatMap_irange _ nq _ hx]; intro t; simp [irange_length hq]
  · intro t; rw [length_flatMap_irange _ (nx * nq) _ hy]; intro t
    rw [length_flatMap_irange _ nq _ hx]; intro t; simp [irange_length hq]

theorem unpL_relPts (c : Int) (nx ny nz nq : Int) (hx : 0 ≤ nx) (hy : 0 ≤ ny) (hq : 0 ≤ nq)
    (g : Int → Int → Int → Int → Int) :
    unpL c ((relPts nx ny nz nq).map fun p => g p.1 p.2.1 p.2.2.1 p.2.2.2) =
      (irange nz).flatMap fun z => (irange ny).flatMap fun y => (irange nx).flatMap fun x =>
        (irange nq).map fun q => (g x y z q, c + (((z * ny + y) * nx + x) * nq + q)) := by
  rw [map_relPts]
  rw [unpL_flatMap_irange c nz (ny * (nx * nq))]
  · congr 1; funext z
    rw [unpL_flatMap_irange _ ny (nx * nq)]
    · congr 1; funext y
      rw [unpL_flatMap_irange _ nx nq]
      · congr 1; funext x
        rw [unpL_irange]
        congr 1; funext q
        congr 1; ring
      · intro t; simp [irange_length hq]
    · intro t; rw [length_flatMap_irange _ nq _ hx]; intro t; simp [irange_length hq]
  · intro t; rw [length_flatMap_irange _ (nx * nq) _ hy]; intro t
    rw [length_flatMap_irange _ nq _ hx]; intro t; simp [irange_length hq]

/-- Value stored by a scatter over all ranks. -/
theorem scatter_flatMap_get (τ : Nat → List Int) (v : Nat → List α) (L : List Nat)
    (hlen : ∀ a ∈ L, (v a).length = (τ a).length) (hn : (L.flatMap τ).Nodup) (m : Mem α)
    (a : Nat) (ha : a ∈ L) (t : Nat) (ht : t < (τ a).length) :
    scatter (L.flatMap τ) (L.flatMap v) m (τ a)[t] =
      some ((v a)[t]'(by rw [hlen a ha]; exact ht)) := by
  induction L generalizing m with
  | nil => simp at ha
  | cons b L ih =>
    simp only [List.flatMap_cons] at hn ⊢
    have hn' := List.nodup_append.mp hn
    rw [scatter_append _ _ _ _ _ (hlen b (by simp))]
    by_cases hab : a = b
    · subst hab
      rw [scatter_other, scatter_get _ _ _ hn'.1 (hlen a (by simp)) t ht]
      intro hmem
      exact hn'.2.2 _ (List.getElem_mem ht) _ hmem rfl
    · have ha' : a ∈ L := by simpa [hab] using ha
      exact ih (fun x hx => hlen x (by simp [hx])) hn'.2.1 _ ha'

theorem gather_getElem (m : Mem α) (l : List Int) (h : ∀ a ∈ l, (m a).isSome) (t : Nat)
    (ht : t < l.length) : some ((gather m l)[t]'(by rw [gather_length h]; exact ht)) = m l[t] := by
  induction l generalizing t with
  | nil => simp at ht
  | cons a l ih =>
    obtain ⟨v, hv⟩ := Option.isSome_iff_exists.mp (h a (by simp))
    have ih := ih (fun x hx => h x (by simp [hx]))
    cases t with
    | zero => simp [gather_cons l hv, hv]
    | succ t => simpa [gather_cons l hv] using ih t (by simpa using ht)

/-- The delivered value, for messages given by a list of points. -/
theorem deliver_get {β : Type} {P : Nat} {σ τ : Nat → Nat → List Int} {m : Nat → LMem α}
    {ai ao r : Nat} (hr : r < P)
    (hin : ∀ a < P, ∀ x ∈ σ a r, ((m a).ub ai x).isSome)
    (hlen : ∀ a < P, (τ a r).length = (σ a r).length)
    (hn : ((List.range P).flatMap fun a => τ a r).Nodup)
    {a : Nat} (ha : a < P) (pts : List β) (f g : β → Int)
    (hσ : σ a r = pts.map f) (hτ : τ a r = pts.map g) (p : β) (hp : p ∈ pts) :
    deliver P σ τ m ai ao r (g p) = (m a).ub ai (f p) := by
  obtain ⟨t, ht, rfl⟩ := List.getElem_of_mem hp
  have hl : ∀ a ∈ List.range P, (msg σ m ai a r).length = (τ a r).length := by
    intro b hb
    have hb := List.mem_range.mp hb
    rw [hlen b hb]; exact gather_length (hin b hb)
  have ht' : t < (τ a r).length := by rw [hτ]; simpa using ht
  have h1 := scatter_flatMap_get (fun a => τ a r) (fun a => msg σ m ai a r) (List.range P) hl hn
    ((m r).ub ao) a (List.mem_range.mpr ha) t ht'
  have h2 : (τ a r)[t] = g pts[t] := by simp [hτ]
  rw [h2] at h1
  unfold deliver
  rw [h1]
  have ht'' : t < (σ a r).length := by rw [hσ]; simpa using ht
  have h3 := gather_getElem ((m a).ub ai) (σ a r) (hin a ha) t ht''
  have h4 : (σ a r)[t] = f pts[t] := by simp [hσ]
  rw [h4] at h3
  exact h3

theorem deliver_other {P : Nat} {σ τ : Nat → Nat → List Int} {m : Nat → LMem α} {ai ao r : Nat}
    (x : Int) (h : ∀ a < P, x ∉ τ a r) : deliver P σ τ m ai ao r x = (m r).ub ao x := by
  apply scatter_other
  intro hx
  obtain ⟨a, ha, hx⟩ := List.mem_flatMap.mp hx
  exact h a (List.mem_range.mp ha) hx

end FftMpi
