import Verif.Json.Document
import Verif.Json.PlainLaws
import Verif.Spec.JsonDoc
import Verif.Model.Convert
import Verif.Props.Version

/-! # C30, C32, C33, C35, C36, C42: JSON documents -/

namespace Verif.Props

open Json (Swap Reordered)

set_option linter.unusedSectionVars false

variable [FloatIO]

/-! ## The version of the specification -/

theorem bom_dec_strict (j : Json) (a : BOM) : J.bom.dec j a = (J.bomWith J.specVersionStrict).dec j a := by
  have h : SameDec (j.depth + 1) J.bom (J.bomWith J.specVersionStrict) := by
    refine SameDec.struct ?_
    exact ⟨rfl, fun k x b _ => rfl⟩
  exact h.dec j a (Nat.lt_succ_self _)

theorem field_enc_congr {α β : Type} {n : String} {oe : Bool} {c c' : JCodec α} {F G : JFields β} {b : α × β}
    (hc : c.enc b.1 = c'.enc b.1) (he : c.empty b.1 = c'.empty b.1) (hf : F.enc b.2 = G.enc b.2) :
    (JFields.field n oe c F).enc b = (JFields.field n oe c' G).enc b := by
  simp only [JFields.enc, hc, he, hf]

theorem bom_enc_strict {b : BOM} (h : SpecVersion1_0 ≤ b.specVersion ∧ b.specVersion ≤ SpecVersion1_7) :
    J.bom.enc b = (J.bomWith J.specVersionStrict).enc b := by
  have e : J.specVersion.enc b.specVersion = J.specVersionStrict.enc b.specVersion := by
    simp [J.specVersionStrict, h]
  refine congrArg (Option.map Json.obj) ?_
  unfold J.bomFields
  show (JFields.field _ _ _ _).enc b.toP.2.2 = (JFields.field _ _ _ _).enc b.toP.2.2
  refine field_enc_congr rfl rfl ?_
  refine field_enc_congr rfl rfl ?_
  exact field_enc_congr e rfl rfl

/-! ## C30 -/

/-- C30: encoding a BOM of a version below 1.2 is refused with the error for that, and that error never occurs
for other versions. -/
theorem json_unsupported_iff (b : BOM) :
    encodeJSON b = .error .unsupportedVersion ↔ b.specVersion < SpecVersion1_2 := by
  unfold encodeJSON
  split
  · simp [*]
  · split <;> simp [*]

/-! ## C32 -/

/-- The BOM without the two fields that only exist in XML. -/
def withoutXML (b : BOM) : BOM := { b with xmlName := {}, xmlns := "" }

theorem encodeJSON_ok {b : BOM} {j : Json} (h : encodeJSON b = .ok j) :
    SpecVersion1_2 ≤ b.specVersion ∧ J.bom.enc b = some j := by
  unfold encodeJSON at h
  split at h
  · simp at h
  · rename_i hv
    split at h
    · simp at h
    · rename_i e
      simp only [Except.ok.injEq] at h
      exact ⟨by omega, h ▸ e⟩

theorem bom_members {b : BOM} {j : Json} (h : J.bom.enc b = some j) :
    ∃ ms, j = .obj ms ∧ ("specVersion", .str (SpecVersion.str b.specVersion)) ∈ ms := by
  simp only [J.bom, J.bomWith, JCodec.struct, Option.map_eq_some_iff] at h
  obtain ⟨ms, h, rfl⟩ := h
  refine ⟨ms, rfl, ?_⟩
  unfold J.bomFields at h
  have h : (JFields.field _ _ _ _).enc b.toP.2.2 = some ms := h
  have step : ∀ {α β : Type} {n : String} {oe : Bool} {c : JCodec α} {F : JFields β} {x : α × β}
      {ms : List (String × Json)}, (JFields.field n oe c F).enc x = some ms →
      ∃ ms', F.enc x.2 = some ms' ∧ (∀ m ∈ ms', m ∈ ms) ∧
        (oe = false → ∃ j, c.enc x.1 = some j ∧ (n, j) ∈ ms) := by
    intro α β n oe c F x ms h
    unfold JFields.enc at h
    split at h
    · rename_i he
      exact ⟨ms, h, fun _ h => h, fun hoe => by simp [hoe] at he⟩
    · split at h
      · simp at h
      · rename_i j hj
        obtain ⟨ms', h', rfl⟩ := Option.map_eq_some_iff.1 h
        exact ⟨ms', h', fun m hm => by simp [hm], fun _ => ⟨j, hj, by simp⟩⟩
  obtain ⟨ms1, h1, m1, _⟩ := step h
  obtain ⟨ms2, h2, m2, _⟩ := step h1
  obtain ⟨ms3, h3, m3, hh⟩ := step h2
  obtain ⟨j, hj, hm⟩ := hh rfl
  have hj : some (Json.str (SpecVersion.str b.specVersion)) = some j := hj
  simp only [Option.some.injEq] at hj
  subst hj
  exact m1 _ (m2 _ hm)

theorem decMembers_none {β : Type} {F : JFields β} {k : String} {j : Json}
    (h : ∀ b, F.set k j b = none) : ∀ (ms : List (String × Json)) (b : β), (k, j) ∈ ms →
      F.decMembers ms b = none
  | [], _, hm => by simp at hm
  | m :: ms, b, hm => by
    rw [decMembers_cons]
    rcases List.mem_cons.1 hm with rfl | hm
    · rw [h b]; rfl
    · cases F.set m.1 m.2 b with
      | none => rfl
      | some b' => exact decMembers_none h ms b' hm

theorem specVersionOfString_str_iff (v : Int) :
    (specVersionOfString (SpecVersion.str v)).isSome = true ↔ SpecVersion1_0 ≤ v ∧ v ≤ SpecVersion1_7 := by
  constructor
  · intro h
    obtain ⟨w, hw⟩ := Option.isSome_iff_exists.1 h
    have e : ∀ p ∈ officialNames.zip allVersions, p.1 = SpecVersion.str p.2 := by decide +kernel
    have r : ∀ w ∈ allVersions, SpecVersion1_0 ≤ w ∧ w ≤ SpecVersion1_7 := by decide
    have hm := (specVersionOfString_iff _ w).1 hw
    have hv : v = w := specVersion_str_injective (e _ hm)
    exact hv ▸ r w (List.of_mem_zip hm).2
  · intro h
    rw [specVersionOfString_str h]; rfl

theorem bom_decodes_version {b b' : BOM} {j : Json} (h : J.bom.enc b = some j)
    (hd : J.bom.dec j {} = some b') : SpecVersion1_0 ≤ b.specVersion ∧ b.specVersion ≤ SpecVersion1_7 := by
  rw [← specVersionOfString_str_iff]
  rw [← Bool.not_eq_false, Option.isSome_eq_false_iff, Option.isNone_iff_eq_none]
  intro hn
  obtain ⟨ms, rfl, hm⟩ := bom_members h
  have hset : ∀ x, (J.bomFields J.specVersion).set "specVersion" (.str (SpecVersion.str b.specVersion)) x
      = none := by
    intro x
    simp only [J.bomFields, JFields.set]
    have h1 : Json.foldKey "specVersion" ≠ Json.foldKey "$schema" := by decide
    have h2 : Json.foldKey "specVersion" ≠ Json.foldKey "bomFormat" := by decide
    simp [h1, h2, J.specVersion, hn]
  simp [J.bom, J.bomWith, JCodec.struct, decMembers_none hset ms _ hm] at hd

theorem bom_enc_withoutXML (b : BOM) : J.bom.enc (withoutXML b) = J.bom.enc b := rfl

theorem enc_round {b : BOM} {j : Json} (hp : (withoutXML b).Plain) (h : J.bom.enc b = some j)
    (hv : SpecVersion1_0 ≤ b.specVersion ∧ b.specVersion ≤ SpecVersion1_7) :
    J.bom.dec j {} = some (withoutXML b) := by
  have ho := (ok_bom (withoutXML b)).2 hp
  rw [← bom_enc_withoutXML, bom_enc_strict (b := withoutXML b) hv] at h
  rw [bom_dec_strict]
  have := JLawful.round (c := J.bomWith J.specVersionStrict) _ j ho.2 h
  rw [ho.1] at this
  exact this

theorem dec_plain {b : BOM} {j : Json} (hd : j.Distinct) (h : J.bom.dec j {} = some b) : b.Plain := by
  rw [bom_dec_strict] at h
  exact (ok_bom b).1 (JLawful.canon (c := J.bomWith J.specVersionStrict) j b hd h)

theorem enc_distinct {b : BOM} {j : Json} (h : J.bom.enc b = some j)
    (hv : SpecVersion1_0 ≤ b.specVersion ∧ b.specVersion ≤ SpecVersion1_7) : j.Distinct := by
  rw [bom_enc_strict hv] at h
  exact JLawful.distinct (c := J.bomWith J.specVersionStrict) _ j h

theorem plain_version {b : BOM} (h : b.Plain) : 0 ≤ b.specVersion ∧ b.specVersion ≤ SpecVersion1_7 := by
  unfold BOM.Plain at h
  exact h.2.2.1

/-- C32: exactly the plain BOMs of a version of the specification are what decoding the JSON written for them
yields (up to the two fields that JSON does not have).  The document must not be nested more than
10000 levels deep, which is what `encoding/json` reads. -/
theorem json_round_trip (b : BOM) (j : Json) (h : encodeJSON b = .ok j) (hdepth : j.depth ≤ maxNestingDepth) :
    decodeJSON j {} = some (withoutXML b) ↔ (withoutXML b).Plain := by
  obtain ⟨hv, he⟩ := encodeJSON_ok h
  have hv' : SpecVersion1_0 ≤ b.specVersion := by
    simp only [SpecVersion1_0, SpecVersion1_2] at *; omega
  simp only [decodeJSON, hdepth, if_true]
  constructor
  · intro hd
    exact dec_plain (enc_distinct he (bom_decodes_version he hd)) hd
  · intro hp
    exact enc_round hp he ⟨hv', (plain_version hp).2⟩

/-! ## C33 -/

/-- C33, for documents without repeated member names: what decodes and encodes again, decodes to the same BOM. -/
theorem json_stable_partial (j j' : Json) (b : BOM) (hdist : j.Distinct) (hd : decodeJSON j {} = some b)
    (he : encodeJSON b = .ok j') (hdepth : j'.depth ≤ maxNestingDepth) : decodeJSON j' {} = some b := by
  unfold decodeJSON at hd
  split at hd
  · have hp := dec_plain hdist hd
    have hx : withoutXML b = b := by
      have h1 := hp.1
      have h2 := hp.2.1
      cases b
      simp only at h1 h2
      subst h1 h2
      rfl
    have := (json_round_trip b j' he hdepth).2
    rw [hx] at this
    exact this hp
  · simp at hd

/-- A document in which a member name occurs twice: the second list of patents is decoded into the elements
of the first. -/
def duplicateDoc : Json :=
  .obj [("bomFormat", .str "CycloneDX"), ("specVersion", .str "1.7"), ("version", .num (.ofInt 1)),
    ("definitions", .obj [("patents", .arr [.obj [("familyId", .str "F")]]),
      ("patents", .arr [.obj [("patentNumber", .str "P")]])])]

/-- What it decodes to: a patent choice with both alternatives set. -/
def duplicateBOM : BOM :=
  { bomFormat := "CycloneDX", specVersion := 8, version := 1, definitions := some {
      patents := .list [{ patent := some { patentNumber := "P" }, patentFamily := some { familyID := "F" } }] } }

/-- What it is written as again. -/
def duplicateDoc' : Json :=
  .obj [("bomFormat", .str "CycloneDX"), ("specVersion", .str "1.7"), ("version", .num (.ofInt 1)),
    ("definitions", .obj [("patents", .arr [.obj [("patentNumber", .str "P"), ("jurisdiction", .str ""),
      ("patentLegalStatus", .str "")]])])]

/-- What that decodes to. -/
def duplicateBOM' : BOM :=
  { bomFormat := "CycloneDX", specVersion := 8, version := 1, definitions := some {
      patents := .list [{ patent := some { patentNumber := "P" } }] } }

set_option maxRecDepth 10000 in
/-- C33 is false for documents with repeated member names. -/
theorem json_stable_fails_on_duplicates :
    ∃ j b j' b', decodeJSON j {} = some b ∧ encodeJSON b = .ok j' ∧ j'.depth ≤ maxNestingDepth ∧
      decodeJSON j' {} = some b' ∧ b ≠ b' := by
  refine ⟨duplicateDoc, duplicateBOM, duplicateDoc', duplicateBOM', rfl, rfl, by decide, rfl, ?_⟩
  intro h
  have := congrArg (fun b => b.definitions.map fun d => d.patents.elems.map fun p => p.patentFamily.isSome) h
  simp [duplicateBOM, duplicateBOM', PSlice.elems] at this

/-! ## C35 -/

/-- C35, for documents without repeated member names: whatever decodes holds, at every place, one alternative
of each choice type (and no pointer to a nil slice, and integers in range). -/
theorem json_decode_plain_partial (j : Json) (b : BOM) (hdist : j.Distinct) (h : decodeJSON j {} = some b) :
    b.Plain := by
  unfold decodeJSON at h
  split at h
  · exact dec_plain hdist h
  · simp at h

/-! ## C36 -/

theorem json_swap (j j' : Json) (a : BOM) (h : Json.Swap j j') (hd : j.Distinct) :
    decodeJSON j a = decodeJSON j' a := by
  unfold decodeJSON
  rw [h.depth, bom_dec_strict, bom_dec_strict,
    JLawful.swap (c := J.bomWith J.specVersionStrict) j j' a h hd]

theorem _root_.Verif.Json.Reordered.trans {j₁ j₂ j₃ : Json} (h : Reordered j₁ j₂) (h' : Reordered j₂ j₃) :
    Reordered j₁ j₃ := by
  induction h with
  | refl => exact h'
  | step s _ ih => exact .step s (ih h')

theorem _root_.Verif.Json.Reordered.member (pre : List (String × Json)) (k : String) (post : List (String × Json))
    {j j' : Json} (h : Reordered j j') :
    Reordered (.obj (pre ++ (k, j) :: post)) (.obj (pre ++ (k, j') :: post)) := by
  induction h with
  | refl => exact .refl _
  | step s _ ih => exact .step (.member pre k post s) ih

theorem _root_.Verif.Json.Reordered.elem (pre post : List Json) {j j' : Json} (h : Reordered j j') :
    Reordered (.arr (pre ++ j :: post)) (.arr (pre ++ j' :: post)) := by
  induction h with
  | refl => exact .refl _
  | step s _ ih => exact .step (.elem pre post s) ih

theorem _root_.Verif.Json.Reordered.perm {ms ms' : List (String × Json)} (h : ms.Perm ms') :
    ∀ pre, Reordered (.obj (pre ++ ms)) (.obj (pre ++ ms')) := by
  induction h with
  | nil => intro pre; exact .refl _
  | cons x _ ih => intro pre; have := ih (pre ++ [x]); simpa using this
  | swap x y l => intro pre; exact .step (.here pre y x l) (.refl _)
  | trans _ _ ih₁ ih₂ => intro pre; exact (ih₁ pre).trans (ih₂ pre)

theorem shuffled_reordered {j j' : Json} (h : Spec.Shuffled j j') : Reordered j j' := by
  induction h with
  | refl => exact .refl _
  | trans _ _ ih₁ ih₂ => exact ih₁.trans ih₂
  | here h => exact Json.Reordered.perm h []
  | member pre k post _ ih => exact ih.member pre k post
  | elem pre post _ ih => exact ih.elem pre post

/-- C36 (order): changing the order of the members of objects, at any depth, does not change what a document
without repeated names decodes to, whatever variable it is decoded into. -/
theorem json_order_irrelevant (j j' : Json) (a : BOM) (h : Spec.Shuffled j j') (hd : j.Distinct) :
    decodeJSON j a = decodeJSON j' a := by
  have hr := shuffled_reordered h
  clear h
  induction hr with
  | refl => rfl
  | step s _ ih => exact (json_swap _ _ a s hd).trans (ih (Verif.Swap.distinct s hd))

end Verif.Props
