import Verif.Xml.SchemaFields
import Verif.Xml.StructLaws
import Verif.Spec.XmlFits

/-!
# Which values are written as the XML schema of a version declares

GENERATED by `tools/gen_xfits.py`; do not edit by hand.

For every type `T`: the element written for `x` is valid at the places of the schema at which the library writes it
exactly if `T.XFits v x`.
-/

namespace Verif

open Xml (sanitize trim textOf textKids)

variable [XFloatIO]

set_option linter.unusedSectionVars false
set_option linter.unusedSimpArgs false
set_option linter.unusedVariables false

theorem xfit_f32 (v : Int) (n : String) (x : F32) : CFit v .text X.f32 n x True True := cf_simple
theorem xfit_f64 (v : Int) (n : String) (x : F64) : CFit v .text X.f64 n x True True := cf_simple

/-- cyclonedx_xml.go:566-596: a reference is text, which is declared in every version. -/
theorem xfit_ike {v : Int} {p : XPlace} {σ β : Type} {F : XFields β} {toP : σ → BOMReference × β}
    {ofP : BOMReference × β → σ} {isRef : β → Bool} {n : String} {s : σ} {A R K : Prop}
    (side : (p.mixed && p.content.null && p.attrs.all fun d => !d.required) = true)
    (ha : AFit v p.attrs F (toP s).2 A) (hr : RFit v p.attrs F (toP s).2 R) (ht : p.mixed = true ∨ F.texts = 0)
    (hk : KFit v p.content (F.blks (toP s).2) K) :
    CFit v p (X.ikev2 F toP ofP isRef) n s True ((toP s).1.val ≠ "" ∨ A ∧ R ∧ K) := by
  simp only [Bool.and_eq_true, List.all_eq_true, Bool.not_eq_true'] at side
  intro o ho
  by_cases h : (toP s).1.val = ""
  · have hs := cf_struct (F := .skip (⟨""⟩ : BOMReference) F) (toP := toP) (ofP := ofP) (n := n) (s := s) (af_skip ha)
      (R := R) (show RFit v p.attrs F (toP s).2 R from hr) ht hk
    have := hs o (by simpa [X.ikev2, h] using ho)
    simpa [h] using this
  · simp only [X.ikev2, h, ne_eq, not_false_eq_true, if_true, Option.some.injEq] at ho
    subst ho
    refine ⟨by simp, ?_⟩
    simp only [Option.mem_def, Option.some.injEq, forall_eq', Xml.isElem, decide_true, true_and, h, ne_eq,
      not_false_eq_true, true_or, iff_true]
    rw [xvalid_iff]
    refine ⟨⟨fun a ha => (by cases ha), fun d hd hq => ?_⟩, .inl side.1.1, ?_⟩
    · simp [side.2 d hd] at hq
    · rw [elements_textKids]
      exact Content.null_matches side.1.2

/-- A repeated choice between elements. -/
theorem matches_many_single {v : Int} {ok : XPlace → Xml → Prop} {a : Content}
    (h : ∀ l, a.Matches v ok l → ∃ x, l = [x]) : ∀ {l : List Xml},
    (Content.many a).Matches v ok l ↔ ∀ x ∈ l, a.Matches v ok [x]
  | [] => ⟨fun _ => by simp, fun _ => .manyNil⟩
  | x :: l => by
    rw [Content.matches_many]
    simp only [List.mem_cons, forall_eq_or_imp, reduceCtorEq, false_or]
    rw [← matches_many_single h (l := l)]
    constructor
    · rintro ⟨l₁, l₂, e, h₁, h₂⟩
      obtain ⟨y, rfl⟩ := h l₁ h₁
      simp only [List.singleton_append, List.cons.injEq] at e
      obtain ⟨rfl, rfl⟩ := e
      exact ⟨h₁, h₂⟩
    · exact fun ⟨h₁, h₂⟩ => ⟨[x], l, rfl, h₁, h₂⟩

theorem encEach_cons {α : Type} {f : α → Option (List Xml)} {a : α} {as : List α} {ks : List Xml}
    (h : X.encEach f (a :: as) = some ks) : ∃ k l, f a = some k ∧ X.encEach f as = some l ∧ ks = k ++ l := by
  simp only [X.encEach] at h
  split at h
  · cases h
  · rename_i k hk
    obtain ⟨l, hl, rfl⟩ := Option.map_eq_some_iff.mp h
    exact ⟨k, l, hk, hl, rfl⟩

/-- What holds of all elements that a loop writes. -/
theorem encEach_all {α : Type} {f : α → Option (List Xml)} {Q : Xml → Prop} {P : α → Prop} : ∀ {as : List α}
    {ks : List Xml}, X.encEach f as = some ks → (∀ a ∈ as, ∀ k, f a = some k → ((∀ x ∈ k, Q x) ↔ P a)) →
      ((∀ x ∈ ks, Q x) ↔ ∀ a ∈ as, P a)
  | [], ks, h, _ => by cases h; simp
  | a :: as, ks, h, hp => by
    obtain ⟨k, l, hk, hl, rfl⟩ := encEach_cons h
    simp only [List.mem_append, List.mem_cons, or_imp, forall_and, forall_eq]
    rw [hp a (by simp) k hk, encEach_all hl fun b hb => hp b (by simp [hb])]

/-- How many elements a loop writes that writes at most one for each. -/
theorem encEach_length {α : Type} {f : α → Option (List Xml)} {w : α → Bool} : ∀ {as : List α}
    {ks : List Xml}, X.encEach f as = some ks →
      (∀ a ∈ as, ∀ k, f a = some k → k.length = if w a then 1 else 0) → ks.length = (as.filter w).length
  | [], ks, h, _ => by cases h; rfl
  | a :: as, ks, h, hp => by
    obtain ⟨k, l, hk, hl, rfl⟩ := encEach_cons h
    rw [List.length_append, hp a (by simp) k hk, encEach_length hl fun b hb => hp b (by simp [hb]), List.filter_cons]
    split <;> simp [Nat.add_comm]

theorem matches_opt_el {v : Int} {ok : XPlace → Xml → Prop} {n : String} {p : XPlace} {l : List Xml} :
    (Content.opt (.el n p)).Matches v ok l ↔ l.length ≤ 1 ∧ ∀ x ∈ l, x.isElem n = true ∧ ok p x := by
  rw [Content.matches_opt, Content.matches_el]
  match l with
  | [] => simp
  | [x] => simp
  | x :: y :: l => simp

theorem matches_some_el {v : Int} {ok : XPlace → Xml → Prop} {n : String} {p : XPlace} {l : List Xml} :
    (Content.some (.el n p)).Matches v ok l ↔ l ≠ [] ∧ ∀ x ∈ l, x.isElem n = true ∧ ok p x := by
  rw [Content.matches_some]
  simp only [Content.matches_el, Content.matches_many_el]
  constructor
  · rintro ⟨_, l₂, rfl, ⟨x, rfl, hx⟩, h⟩
    simp only [List.singleton_append, ne_eq, reduceCtorEq, not_false_eq_true, List.mem_cons, forall_eq_or_imp, true_and]
    exact ⟨hx, h⟩
  · rintro ⟨h, h'⟩
    cases l with
    | nil => exact absurd rfl h
    | cons x l => exact ⟨[x], l, rfl, ⟨x, rfl, h' x (by simp)⟩, fun y hy => h' y (by simp [hy])⟩

/-- An element without attributes at a place where none is required. -/
theorem xvalid_bare {v : Int} {p : XPlace} {n : String} {ks : List Xml}
    (side : (p.attrs.all fun d => !d.required) = true) (hk : ∀ x ∈ ks, ∃ m, x.isElem m = true) :
    XValid v p (.elem n [] ks) ↔ p.content.Matches v (XValid v) ks := by
  simp only [List.all_eq_true, Bool.not_eq_true'] at side
  rw [xvalid_iff, elements_of hk]
  refine ⟨fun h => h.2.2, fun h => ⟨⟨by simp, fun d hd hq => by simp [side d hd] at hq⟩, .inr fun s hs => ?_, h⟩⟩
  obtain ⟨m, hm⟩ := hk _ hs
  simp [Xml.isElem] at hm

theorem encEach_elems {α : Type} {f : α → Option (List Xml)} : ∀ {as : List α} {ks : List Xml},
    X.encEach f as = some ks → (∀ a ∈ as, ∀ k, f a = some k → ∀ x ∈ k, ∃ m, x.isElem m = true) →
      ∀ x ∈ ks, ∃ m, x.isElem m = true
  | [], ks, h, _ => by cases h; simp
  | a :: as, ks, h, hp => by
    obtain ⟨k, l, hk, hl, rfl⟩ := encEach_cons h
    intro x hx
    rcases List.mem_append.mp hx with hx | hx
    · exact hp a (by simp) k hk x hx
    · exact encEach_elems hl (fun b hb => hp b (by simp [hb])) x hx

