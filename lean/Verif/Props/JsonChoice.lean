import Verif.Props.JsonContent
import Verif.Json.WritableLaws
import Verif.Json.FloatExample

/-! # C34, C35: choice types in JSON -/

namespace Verif.Props

set_option linter.unusedSectionVars false

variable [FloatIO]

/-! ## C34 -/

/-- C34: exactly the BOMs of a supported version in which nothing is ambiguous, at any depth, can be
written (see `BOM.Writable`). -/
theorem json_encodes_iff (b : BOM) :
    (∃ j, encodeJSON b = .ok j) ↔ SpecVersion1_2 ≤ b.specVersion ∧ b.Writable := by
  rw [← w_bom]
  unfold encodeJSON J.W
  by_cases h : b.specVersion < SpecVersion1_2
  · rw [if_pos h]
    constructor
    · rintro ⟨j, hj⟩; cases hj
    · intro h'; omega
  · rw [if_neg h]
    have h' : SpecVersion1_2 ≤ b.specVersion := by omega
    cases J.bom.enc b <;> simp [h']

/-- A component with a license that has an identifier and a name. -/
def ambiguousComponent : Component :=
  { type := "file", name := "f", licenses := .list [{ license := some { id := "MIT", name := "MIT License" } }] }

/-- This component inside another one. -/
def ambiguousLicense : BOM :=
  { bomFormat := "CycloneDX", specVersion := 7, version := 1,
    components := .list [{ type := "library", name := "acme", components := .list [ambiguousComponent] }] }

set_option maxRecDepth 10000 in
example : encodeJSON ambiguousLicense = .error .marshal := rfl

example : ¬ ambiguousLicense.Writable := by
  intro h
  have : encodeJSON ambiguousLicense = .error .marshal := by set_option maxRecDepth 10000 in rfl
  obtain ⟨j, hj⟩ := (json_encodes_iff ambiguousLicense).2 ⟨by decide, h⟩
  rw [this] at hj
  cases hj

example : plainBOM.Writable := by
  refine ((json_encodes_iff plainBOM).1 ⟨plainDoc, ?_⟩).2
  set_option maxRecDepth 10000 in rfl

/-- A list of asserters with two alternatives each: an organization and a reference. -/
def twoAsserters : BOM :=
  { bomFormat := "CycloneDX", specVersion := 8, version := 1,
    components := .list [{ type := "library", name := "acme", patentAssertions := .list [
      { asserter := some { organization := some { name := "ACME" }, bomRef := some ⟨"r"⟩ } }] }] }

/-- The same asserter without the reference. -/
def oneAsserter : BOM :=
  { bomFormat := "CycloneDX", specVersion := 8, version := 1,
    components := .list [{ type := "library", name := "acme", patentAssertions := .list [
      { asserter := some { organization := some { name := "ACME" } } }] }] }

set_option maxRecDepth 10000 in
/-- C34 is false for asserters: a second alternative is dropped without an error. -/
theorem json_asserter_dropped :
    ∃ b b' j, b ≠ b' ∧ encodeJSON b = .ok j ∧ encodeJSON b' = .ok j ∧ b'.Plain := by
  have he : encodeJSON twoAsserters = encodeJSON oneAsserter := rfl
  have h1 : ∃ j, encodeJSON oneAsserter = .ok j := ⟨_, rfl⟩
  obtain ⟨j, h'⟩ := h1
  have h := he.trans h'
  refine ⟨twoAsserters, oneAsserter, j, ?_, h, h', ?_⟩
  · intro h
    have := congrArg (fun b : BOM => b.components.elems.map fun c => c.patentAssertions.elems.map fun a =>
      a.asserter.map fun x => x.bomRef) h
    simp [twoAsserters, oneAsserter, PSlice.elems] at this
  · have hd : ∃ j, encodeJSON oneAsserter = .ok j ∧ j.depth ≤ maxNestingDepth ∧
        decodeJSON j {} = some oneAsserter := ⟨_, rfl, by decide, rfl⟩
    obtain ⟨j, h1, h2, h3⟩ := hd
    exact (json_round_trip oneAsserter j h1 h2).1 h3

/-! ## C35 -/

/-- C35 for tools: the legacy list or the new lists, never both. -/
theorem tools_decode_one (j : Json) (x : ToolsChoice) (h : J.toolsChoice.dec j {} = some x) :
    x.tools = .nil ∨ (x.components = .nil ∧ x.services = .nil) := by
  simp only [J.toolsChoice] at h
  split at h
  · split at h
    · cases h
    · cases h; exact .inr ⟨rfl, rfl⟩
  · split at h
    · cases h
    · split at h <;> (cases h; exact .inl rfl)

/-- C35 for evidence identities: one identity or a list, never both. -/
theorem evidenceIdentity_decode_one (j : Json) (x : EvidenceIdentityChoice)
    (h : J.evidenceIdentityChoice.dec j {} = some x) :
    (x.identity = none ∧ x.identities ≠ .nil) ∨ (x.identity ≠ none ∧ x.identities = .nil) := by
  simp only [J.evidenceIdentityChoice] at h
  split at h
  · split at h
    · cases h
    · rename_i hd
      cases h
      refine .inl ⟨rfl, ?_⟩
      simp only [JCodec.pslice, Option.map_eq_some_iff] at hd
      obtain ⟨_, _, rfl⟩ := hd
      simp
  · split at h
    · cases h
    · cases h; exact .inr ⟨by simp, rfl⟩

/-- C35 for certificate states. -/
theorem certificateState_decode_one (j : Json) (x : CertificateState)
    (h : J.certificateState.dec j {} = some x) : x.predefined.isSome ≠ x.custom.isSome := by
  simp only [J.certificateState] at h
  repeat' split at h
  all_goals first | (cases h; done) | (cases h; simp)

/-- C35 for certificate extensions. -/
theorem certificateExtension_decode_one (j : Json) (x : CertificateExtension)
    (h : J.certificateExtension.dec j {} = some x) : x.common.isSome ≠ x.custom.isSome := by
  simp only [J.certificateExtension] at h
  repeat' split at h
  all_goals first | (cases h; done) | (cases h; simp)

/-- C35 for patents and patent families. -/
theorem patentChoice_decode_one (j : Json) (x : PatentChoice) (h : J.patentChoice.dec j {} = some x) :
    x.patent.isSome ≠ x.patentFamily.isSome := by
  simp only [J.patentChoice] at h
  repeat' split at h
  all_goals first | (cases h; done) | (cases h; simp)

/-- C35 for asserters: at most one of the three. -/
theorem asserter_decode_one (j : Json) (x : AsserterChoice) (h : J.asserterChoice.dec j {} = some x) :
    (x.individual = none ∧ x.bomRef = none) ∨ (x.organization = none ∧ x.bomRef = none) ∨
      (x.organization = none ∧ x.individual = none) := by
  simp only [J.asserterChoice] at h
  repeat' split at h
  all_goals simp only [Option.map_eq_some_iff, Option.some.injEq, reduceCtorEq] at h
  · subst h; simp
  · obtain ⟨_, _, rfl⟩ := h; simp
  · obtain ⟨_, _, rfl⟩ := h; simp
  · obtain ⟨_, _, rfl⟩ := h; simp
  · subst h; simp

/-- C35 for datasets: a reference or data, never both. -/
theorem dataset_decode_one (j : Json) (x : MLDatasetChoice) (h : J.mlDatasetChoice.dec j {} = some x) :
    x.ref = "" ∨ x.componentData = none := by
  simp only [J.mlDatasetChoice] at h
  repeat' split at h
  all_goals first | (cases h; done) | (cases h; simp)

/-- C35 for environment variables: a property or a string, never both. -/
theorem environmentVariable_decode_one (j : Json) (x : EnvironmentVariableChoice)
    (h : J.environmentVariableChoice.dec j {} = some x) : x.property = none ∨ x.value = "" := by
  simp only [J.environmentVariableChoice] at h
  repeat' split at h
  all_goals first | (cases h; done) | (cases h; simp)

theorem ikev2_keeps {α β σ : Type} {F : JFields β} {z a : α} {toP : σ → α × β} {ofP : α × β → σ} {j : Json}
    {x : σ} {s : σ} (hs : (toP s).1 = a) (hx : ∀ p, toP (ofP p) = p)
    (h : (JCodec.struct (.skip z F) toP ofP).dec j s = some x) : (toP x).1 = a := by
  simp only [JCodec.struct] at h
  split at h
  · cases h; exact hs
  · rename_i ms
    obtain ⟨p, hp, rfl⟩ := Option.map_eq_some_iff.1 h
    rw [hx]
    have e : toP s = ((toP s).1, (toP s).2) := rfl
    rw [e, decMembers_skip] at hp
    obtain ⟨q, _, rfl⟩ := Option.map_eq_some_iff.1 hp
    exact hs
  · cases h

/-- C35 for the five kinds of IKEv2 transforms: a reference alone, or no reference. -/
theorem ikev2Auth_decode_one (j : Json) (x : IKEv2Auth) (h : J.ikev2Auth.dec j {} = some x) :
    x.bomRef.val = "" ∨ x = { bomRef := x.bomRef } := by
  simp only [J.ikev2Auth, J.ikev2] at h
  split at h
  · cases h; exact .inr rfl
  · have hk := ikev2_keeps (a := ⟨""⟩) rfl (fun _ => rfl) h
    exact .inl (congrArg BOMReference.val hk)

/-- C35 for IKEv2 encryption. -/
theorem ikev2Enc_decode_one (j : Json) (x : IKEv2Enc) (h : J.ikev2Enc.dec j {} = some x) :
    x.bomRef.val = "" ∨ x = { bomRef := x.bomRef } := by
  simp only [J.ikev2Enc, J.ikev2] at h
  split at h
  · cases h; exact .inr rfl
  · have hk := ikev2_keeps (a := ⟨""⟩) rfl (fun _ => rfl) h
    exact .inl (congrArg BOMReference.val hk)

/-- C35 for IKEv2 integrity. -/
theorem ikev2Integ_decode_one (j : Json) (x : IKEv2Integ) (h : J.ikev2Integ.dec j {} = some x) :
    x.bomRef.val = "" ∨ x = { bomRef := x.bomRef } := by
  simp only [J.ikev2Integ, J.ikev2] at h
  split at h
  · cases h; exact .inr rfl
  · have hk := ikev2_keeps (a := ⟨""⟩) rfl (fun _ => rfl) h
    exact .inl (congrArg BOMReference.val hk)

/-- C35 for IKEv2 key exchange. -/
theorem ikev2Ke_decode_one (j : Json) (x : IKEv2Ke) (h : J.ikev2Ke.dec j {} = some x) :
    x.bomRef.val = "" ∨ x = { bomRef := x.bomRef } := by
  simp only [J.ikev2Ke, J.ikev2] at h
  split at h
  · cases h; exact .inr rfl
  · have hk := ikev2_keeps (a := ⟨""⟩) rfl (fun _ => rfl) h
    exact .inl (congrArg BOMReference.val hk)

/-- C35 for IKEv2 pseudo-random functions. -/
theorem ikev2Prf_decode_one (j : Json) (x : IKEv2Prf) (h : J.ikev2Prf.dec j {} = some x) :
    x.bomRef.val = "" ∨ x = { bomRef := x.bomRef } := by
  simp only [J.ikev2Prf, J.ikev2] at h
  split at h
  · cases h; exact .inr rfl
  · have hk := ikev2_keeps (a := ⟨""⟩) rfl (fun _ => rfl) h
    exact .inl (congrArg BOMReference.val hk)

/-- A document with an empty choice of tools. -/
def emptyToolsDoc : Json :=
  .obj [("bomFormat", .str "CycloneDX"), ("specVersion", .str "1.6"), ("version", .num (.ofInt 1)),
    ("metadata", .obj [("tools", .obj [])])]

/-- What it decodes to. -/
def emptyToolsBOM : BOM :=
  { bomFormat := "CycloneDX", specVersion := 7, version := 1, metadata := some { tools := some {} } }

set_option maxRecDepth 10000 in
/-- C35: "so it can be encoded again" is false: a choice of tools without any member is read, but cannot be
written. -/
theorem json_empty_tools_not_rewritable :
    ∃ j b, j.Distinct ∧ decodeJSON j {} = some b ∧ encodeJSON b = .error .marshal := by
  refine ⟨emptyToolsDoc, emptyToolsBOM, ?_, rfl, rfl⟩
  simp only [emptyToolsDoc, Json.Distinct, Json.DistinctM, Json.DistinctP, and_true, true_and]
  decide +kernel

set_option maxRecDepth 10000 in
/-- C35 is false inside a document that repeats a member name: both alternatives of a patent get set. -/
theorem json_decode_two_alternatives :
    ∃ j b, decodeJSON j {} = some b ∧ ¬ b.Plain := by
  refine ⟨duplicateDoc, duplicateBOM, rfl, ?_⟩
  intro h
  have h' : duplicateBOM = duplicateBOM' := by
    have e : encodeJSON duplicateBOM = .ok duplicateDoc' := rfl
    have := (json_round_trip duplicateBOM duplicateDoc' e (by decide)).2 h
    have e' : decodeJSON duplicateDoc' {} = some duplicateBOM' := rfl
    rw [e'] at this
    exact (Option.some.inj this).symm
  have := congrArg (fun b => b.definitions.map fun d => d.patents.elems.map fun p => p.patentFamily.isSome) h'
  simp [duplicateBOM, duplicateBOM', PSlice.elems] at this

/-! ## C42 -/

set_option maxRecDepth 10000 in
/-- C42 (JSON): `NewBOM()` can be written, and reading it back gives it without the XML namespace, which is
not part of the JSON format. -/
theorem newBOM_json_partial : ∃ j, encodeJSON newBOM = .ok j ∧ j.depth ≤ maxNestingDepth ∧
    decodeJSON j {} = some (withoutXML newBOM) := ⟨_, rfl, by decide, rfl⟩

/-- C42 (JSON): the namespace that `NewBOM()` sets is lost. -/
theorem newBOM_json_namespace_lost : withoutXML newBOM ≠ newBOM := by
  intro h
  have := congrArg BOM.xmlns h
  revert this
  decide +kernel

end Verif.Props
