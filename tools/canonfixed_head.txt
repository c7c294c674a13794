import Verif.Proofs.Preserve

/-!
GENERATED by `tools/gen_canonfixed.py`; do not edit by hand.

Helper lemmas: the canonical form of a converted value is again a converted value
(`f v x = x → f v x.canonical = x.canonical`); no property statements here. -/

namespace Verif

section
variable {v : Int}

theorem PSlice.fix_iff {α : Type} {f : α → α} {p : PSlice α} : p.map f = p ↔ ∀ x ∈ p.elems, f x = x := by
  cases p with
  | nil => simp [PSlice.map, PSlice.elems]
  | nilSlice => simp [PSlice.map, PSlice.elems]
  | list xs =>
    simp only [PSlice.map, PSlice.elems, PSlice.list.injEq]
    induction xs with
    | nil => simp
    | cons x xs ih => simp [ih]

theorem PSlice.fix_compact {α : Type} {f : α → α} {p : PSlice α} (h : p.map f = p) :
    p.compact.map f = p.compact := by
  cases p <;> simp_all [PSlice.map, PSlice.compact]

theorem PSlice.fix_compactWith {α : Type} {f g : α → α} {p : PSlice α}
    (hg : ∀ x ∈ p.elems, f x = x → f (g x) = g x) (h : p.map f = p) :
    (p.compactWith g).map f = p.compactWith g := by
  rw [PSlice.fix_iff] at h
  cases p with
  | nil => rfl
  | nilSlice => rfl
  | list xs =>
    simp only [PSlice.compactWith, PSlice.map, List.map_map, PSlice.list.injEq]
    exact List.map_congr_left fun x hx => hg x hx (h x hx)

theorem Option.fix_map {α : Type} {f g : α → α} {o : Option α} (hg : ∀ x ∈ o, f x = x → f (g x) = g x)
    (h : o.map f = o) : (o.map g).map f = o.map g := by
  cases o <;> simp_all

theorem PSlice.map_eq_nil {α β : Type} {f : α → β} {p : PSlice α} : p.map f = .nil ↔ p = .nil := by
  cases p <;> simp [PSlice.map]

theorem PSlice.compact_nil {α : Type} : (PSlice.nil : PSlice α).compact = .nil := rfl
theorem PSlice.compactWith_nil {α : Type} {f : α → α} : (PSlice.nil : PSlice α).compactWith f = .nil := rfl

/-- A removed list. -/
theorem fix_gate {α : Type} {p : Prop} [Decidable p] {d x : α} {g : α → α} (hd : g d = d)
    (h : (if p then d else x) = x) : (if p then d else g x) = g x := by
  split_ifs at h ⊢
  · rw [← h, hd]
  · rfl

/-- A replaced enumeration value. -/
theorem fix_gate' {α : Type} {p : Prop} [Decidable p] {x y : α} {f g : α → α} (hf : f x = x → f (g x) = g x)
    (h : (if p then y else f x) = x) (hd : p → g y = y) : (if p then y else f (g x)) = g x := by
  split_ifs at h ⊢ with hp
  · rw [← h, hd hp]
  · exact hf h

/-- A value converted below some version. -/
theorem fix_gate2 {α : Type} {p : Prop} [Decidable p] {x : α} {e f g : α → α} (hf : f x = x → f (g x) = g x)
    (he : e x = x → e (g x) = g x) (h : (if p then e x else f x) = x) :
    (if p then e (g x) else f (g x)) = g x := by
  split_ifs at h ⊢
  · exact he h
  · exact hf h
