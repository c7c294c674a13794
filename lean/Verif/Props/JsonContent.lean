import Verif.Props.Json
import Verif.Json.ObsLaws

/-! # C36: what the decoder looks at -/

namespace Verif.Props

open Spec

set_option linter.unusedSectionVars false

variable [FloatIO]

theorem valuesOf_eq_selected (n : String) (ms : List (String × Json)) : valuesOf n ms = selected n ms := by
  induction ms with
  | nil => rfl
  | cons m ms ih =>
    obtain ⟨k, j⟩ := m
    by_cases h : Json.foldKey k = Json.foldKey n
    · rw [selected_cons_eq (m := (k, j)) h, valuesOf, if_pos h, ih]
    · rw [selected_cons_ne (m := (k, j)) h, valuesOf, if_neg h, ih]

theorem valuesOf_append (n : String) (ms ms' : List (String × Json)) :
    valuesOf n (ms ++ ms') = valuesOf n ms ++ valuesOf n ms' := by
  simp only [valuesOf_eq_selected, selected_append]

/-- A chain of `Obs` steps. -/
inductive ObsStar : Json → Json → Prop
  | refl (j : Json) : ObsStar j j
  | step {j₁ j₂ j₃ : Json} : Obs j₁ j₂ → ObsStar j₂ j₃ → ObsStar j₁ j₃

theorem ObsStar.trans {j₁ j₂ j₃ : Json} (h : ObsStar j₁ j₂) (h' : ObsStar j₂ j₃) : ObsStar j₁ j₃ := by
  induction h with
  | refl => exact h'
  | step s _ ih => exact .step s (ih h')

theorem ObsStar.member (pre : List (String × Json)) (k : String) (post : List (String × Json)) {j j' : Json}
    (h : ObsStar j j') : ObsStar (.obj (pre ++ (k, j) :: post)) (.obj (pre ++ (k, j') :: post)) := by
  induction h with
  | refl => exact .refl _
  | step s _ ih => exact .step (.member pre k post s) ih

theorem ObsStar.elem (pre post : List Json) {j j' : Json} (h : ObsStar j j') :
    ObsStar (.arr (pre ++ j :: post)) (.arr (pre ++ j' :: post)) := by
  induction h with
  | refl => exact .refl _
  | step s _ ih => exact .step (.elem pre post s) ih

theorem deep_obs {R : List (String × Json) → List (String × Json) → Prop}
    (hR : ∀ ms ms', R ms ms' → SameValues ms ms') {j j' : Json} (h : Deep R j j') : ObsStar j j' := by
  induction h with
  | refl => exact .refl _
  | trans _ _ ih₁ ih₂ => exact ih₁.trans ih₂
  | here h =>
    refine .step (.here fun n hn => ?_) (.refl _)
    have := hR _ _ h n hn
    rwa [valuesOf_eq_selected, valuesOf_eq_selected] at this
  | member pre k post _ ih => exact ih.member pre k post
  | elem pre post _ ih => exact ih.elem pre post

theorem addsUnknown_same {ms ms' : List (String × Json)} (h : AddsUnknown ms ms') : SameValues ms ms' := by
  obtain ⟨pre, k, j, post, hk, rfl, rfl⟩ := h
  intro n hn
  rw [valuesOf_append, valuesOf_append, valuesOf, if_neg (hk n hn)]

theorem recases_same {ms ms' : List (String × Json)} (h : Recases ms ms') : SameValues ms ms' := by
  obtain ⟨pre, k, k', j, post, hk, rfl, rfl⟩ := h
  intro n _
  rw [valuesOf_append, valuesOf_append, valuesOf, valuesOf, hk]

theorem exchanges_same {ms ms' : List (String × Json)} (h : Exchanges ms ms') : SameValues ms ms' := by
  obtain ⟨pre, k, j, k', j', post, hk, rfl, rfl⟩ := h
  intro n _
  simp only [valuesOf_append, valuesOf]
  by_cases h1 : Json.foldKey k = Json.foldKey n <;> by_cases h2 : Json.foldKey k' = Json.foldKey n
  · exact absurd (h1.trans h2.symm) hk
  all_goals simp [h1, h2]

instance : JObs J.bom := inferInstanceAs (JObs (J.bomWith J.specVersion))

theorem deep_decode {R : List (String × Json) → List (String × Json) → Prop}
    (hR : ∀ ms ms', R ms ms' → SameValues ms ms') {j j' : Json} (a : BOM) (h : Deep R j j')
    (hd : j.depth ≤ maxNestingDepth) (hd' : j'.depth ≤ maxNestingDepth) :
    decodeJSON j a = decodeJSON j' a := by
  unfold decodeJSON
  rw [if_pos hd, if_pos hd']
  have hs := deep_obs hR h
  clear hd hd' h
  induction hs with
  | refl => rfl
  | step s _ ih => exact (JObs.obs (c := J.bom) _ _ a s).trans ih

/-- C36: two documents in which, at every depth, each name of the format has the same values in the same
order, up to the case of names, decode to the same BOM, or are both refused. -/
theorem json_content_only (j j' : Json) (a : BOM) (h : Deep SameValues j j')
    (hd : j.depth ≤ maxNestingDepth) (hd' : j'.depth ≤ maxNestingDepth) :
    decodeJSON j a = decodeJSON j' a := deep_decode (fun _ _ h => h) a h hd hd'

/-- C36 (unknown members): members with names the format does not have, with any values and at any depth,
change nothing. -/
theorem json_unknown_ignored (j j' : Json) (a : BOM) (h : Deep AddsUnknown j j')
    (hd : j.depth ≤ maxNestingDepth) (hd' : j'.depth ≤ maxNestingDepth) :
    decodeJSON j a = decodeJSON j' a := deep_decode (fun _ _ => addsUnknown_same) a h hd hd'

/-- C36 (case): writing member names in another case changes nothing. -/
theorem json_case_ignored (j j' : Json) (a : BOM) (h : Deep Recases j j')
    (hd : j.depth ≤ maxNestingDepth) (hd' : j'.depth ≤ maxNestingDepth) :
    decodeJSON j a = decodeJSON j' a := deep_decode (fun _ _ => recases_same) a h hd hd'

/-- C36 (order): exchanging neighbouring members with different names changes nothing, even if some other
name is repeated. -/
theorem json_exchange_ignored (j j' : Json) (a : BOM) (h : Deep Exchanges j j')
    (hd : j.depth ≤ maxNestingDepth) (hd' : j'.depth ≤ maxNestingDepth) :
    decodeJSON j a = decodeJSON j' a := deep_decode (fun _ _ => exchanges_same) a h hd hd'

/-! ## A case of each hypothesis -/

section Examples

/-- A document with a component. -/
def plainDoc : Json :=
  .obj [("bomFormat", .str "CycloneDX"), ("specVersion", .str "1.6"), ("version", .num (.ofInt 1)),
    ("components", .arr [.obj [("type", .str "library"), ("name", .str "acme")]])]

/-- The document with a member that is not in the format, inside the component. -/
def extendedDoc : Json :=
  .obj [("bomFormat", .str "CycloneDX"), ("specVersion", .str "1.6"), ("version", .num (.ofInt 1)),
    ("components", .arr [.obj [("type", .str "library"), ("x-acme", .arr [.null]), ("name", .str "acme")]])]

/-- The document with a name in another case. -/
def recasedDoc : Json :=
  .obj [("bomFormat", .str "CycloneDX"), ("SPECVersion", .str "1.6"), ("version", .num (.ofInt 1)),
    ("components", .arr [.obj [("type", .str "library"), ("name", .str "acme")]])]

/-- The document with two members exchanged. -/
def exchangedDoc : Json :=
  .obj [("bomFormat", .str "CycloneDX"), ("specVersion", .str "1.6"), ("version", .num (.ofInt 1)),
    ("components", .arr [.obj [("name", .str "acme"), ("type", .str "library")]])]

/-- What all of them decode to. -/
def plainBOM : BOM :=
  { bomFormat := "CycloneDX", specVersion := 7, version := 1,
    components := .list [{ type := "library", name := "acme" }] }

theorem unknown_x_acme : Unknown "x-acme" := by unfold Unknown; decide +kernel

example : Deep AddsUnknown plainDoc extendedDoc := by
  refine .member [("bomFormat", _), ("specVersion", _), ("version", _)] "components" [] ?_
  refine .elem [] [] ?_
  exact .here ⟨[("type", _)], "x-acme", _, [("name", _)], unknown_x_acme, rfl, rfl⟩

example : Deep Recases plainDoc recasedDoc :=
  .here ⟨[("bomFormat", _)], "specVersion", "SPECVersion", _, [("version", _), ("components", _)],
    by decide +kernel, rfl, rfl⟩

example : Deep Exchanges plainDoc exchangedDoc := by
  refine .member [("bomFormat", _), ("specVersion", _), ("version", _)] "components" [] ?_
  refine .elem [] [] ?_
  exact .here ⟨[], "type", _, "name", _, [], by decide +kernel, rfl, rfl⟩

set_option maxRecDepth 10000 in
example : decodeJSON plainDoc {} = some plainBOM ∧ decodeJSON extendedDoc {} = some plainBOM ∧
    decodeJSON recasedDoc {} = some plainBOM ∧ decodeJSON exchangedDoc {} = some plainBOM := ⟨rfl, rfl, rfl, rfl⟩

example : plainDoc.depth ≤ maxNestingDepth ∧ extendedDoc.depth ≤ maxNestingDepth ∧ plainDoc.Distinct := by
  refine ⟨by decide, by decide, ?_⟩
  simp only [plainDoc, Json.Distinct, Json.DistinctM, Json.DistinctP, Json.DistinctL, and_true, true_and]
  constructor <;> decide +kernel

/-- A BOM that meets the hypotheses of the round trip. -/
def plainBOM' : BOM := { plainBOM with xmlns := "http://cyclonedx.org/schema/bom/1.6" }

set_option maxRecDepth 10000 in
example : encodeJSON plainBOM' = .ok plainDoc ∧ decodeJSON plainDoc {} = some (withoutXML plainBOM') := ⟨rfl, rfl⟩

end Examples

end Verif.Props
