import Verif.Json.MemberLaws
import Verif.Props.JsonMembers

/-!
# C62 for the types that are written in one of several forms

Which form is written for which alternative, and which alternative a document is read into.
-/

namespace Verif.Props

set_option linter.unusedSectionVars false

variable [FloatIO]

theorem selected_called (n : String) (ms : List (String × Json)) : selected n ms = (called n ms).map Prod.snd := rfl

theorem peek_called_none {n : String} {ms : List (String × Json)} (h : called n ms = []) :
    (J.peek n).dec (.obj ms) "" = some "" := by
  rw [peek_obj, selected_called, h]; rfl

theorem peek_called_one {n s : String} {ms : List (String × Json)} (h : (called n ms).map Prod.snd = [.str s]) :
    (J.peek n).dec (.obj ms) "" = some s := by
  rw [peek_obj, selected_called, h]; rfl

/-- Tools as a list are written as an array of tools, and an array is read as a list of tools. -/
theorem json_form_tools_list (ts : PSlice Tool) (h : ts ≠ .nil) (js : List Json) (old : ToolsChoice) :
    J.toolsChoice.enc { tools := ts } = (JCodec.pslice J.tool).enc ts ∧
    J.toolsChoice.dec (.arr js) old = ((JCodec.pslice J.tool).dec (.arr js) .nil).map fun ts => { tools := ts } := by
  have hn : ts.isNil = false := by cases ts <;> first | rfl | exact absurd rfl h
  constructor
  · simp [J.toolsChoice, hn, PSlice.isNil]
  · simp only [J.toolsChoice]
    cases (JCodec.pslice J.tool).dec (.arr js) .nil <;> rfl

/-- Tools as components and services are written as an object with these two members, each left out if it is empty. -/
theorem json_form_tools_object (cs : PSlice Component) (ss : PSlice Service) (h : cs ≠ .nil ∨ ss ≠ .nil) (j : Json)
    (he : J.toolsChoice.enc { components := cs, services := ss } = some j) :
    ∃ ms, j = .obj ms ∧ (∀ m ∈ ms, m.1 ∈ ["components", "services"]) ∧
      (if (JCodec.pslice J.component).empty cs = true then called "components" ms = []
        else ∃ j, (JCodec.pslice J.component).enc cs = some j ∧ called "components" ms = [("components", j)]) ∧
      (if (JCodec.pslice J.service).empty ss = true then called "services" ms = []
        else ∃ j, (JCodec.pslice J.service).enc ss = some j ∧ called "services" ms = [("services", j)]) := by
  have hn : ¬ cs.isNil = true ∨ ¬ ss.isNil = true := by
    rcases h with h | h
    · exact .inl (by cases cs <;> first | exact absurd rfl h | simp [PSlice.isNil])
    · exact .inr (by cases ss <;> first | exact absurd rfl h | simp [PSlice.isNil])
  have he' : J.toolsChoiceJSON.enc (cs, ss) = some j := by
    simp only [J.toolsChoice] at he
    rw [if_neg (by simp [PSlice.isNil]), if_neg (by simp [PSlice.isNil]), if_pos hn] at he
    exact he
  have hd : JFields.NamesDistinct J.toolsChoiceFields :=
    show (List.map Json.foldKey ["components", "services"]).Nodup by decide +kernel
  have ho : Object J.toolsChoiceJSON ["components", "services"] :=
    struct_object J.toolsChoiceFields _ _ (fun _ => rfl) (fun _ => rfl) _ rfl
  have h1 : Member J.toolsChoiceJSON "components" false (JCodec.pslice J.component) Prod.fst (fun p v => (v, p.2)) :=
    struct_member .here hd (fun _ => rfl) (fun _ _ => rfl)
  have h2 : Member J.toolsChoiceJSON "services" false (JCodec.pslice J.service) Prod.snd (fun p v => (p.1, v)) :=
    struct_member (.there .here) hd (fun _ => rfl) (fun _ _ => rfl)
  obtain ⟨ms, rfl, hm⟩ := ho.written _ _ he'
  refine ⟨ms, rfl, hm, ?_, ?_⟩
  · simpa using h1.written _ _ he'
  · simpa using h2.written _ _ he'

/-- An object is read as components and services; other members are ignored. -/
theorem json_form_tools_read (jc js : Json) (old : ToolsChoice) (cs : PSlice Component) (ss : PSlice Service)
    (hc : (JCodec.pslice J.component).dec jc .nil = some cs) (hs : (JCodec.pslice J.service).dec js .nil = some ss)
    (h : cs ≠ .nil ∨ ss ≠ .nil) :
    J.toolsChoice.dec (.obj [("components", jc), ("services", js)]) old = some { components := cs, services := ss } := by
  have hn : ¬ cs.isNil = true ∨ ¬ ss.isNil = true := by
    rcases h with h | h
    · exact .inl (by cases cs <;> first | exact absurd rfl h | simp [PSlice.isNil])
    · exact .inr (by cases ss <;> first | exact absurd rfl h | simp [PSlice.isNil])
  have e : J.toolsChoiceJSON.dec (.obj [("components", jc), ("services", js)]) (.nil, .nil) = some (cs, ss) := by
    have n1 : Json.foldKey "services" ≠ Json.foldKey "components" := by decide +kernel
    simp only [J.toolsChoiceJSON, JCodec.struct, JFields.decMembers, J.toolsChoiceFields, JFields.set, if_true, hc,
      Option.map_some, if_neg n1, hs]
  simp only [J.toolsChoice, e, if_pos hn]

/-- An identity is written as an object, identities as an array; and read alike. -/
theorem json_form_identities (i : EvidenceIdentity) (is : PSlice EvidenceIdentity) (h : is ≠ .nil) (js : List Json)
    (ms : List (String × Json)) :
    J.evidenceIdentityChoice.enc { identity := some i } = J.evidenceIdentity.enc i ∧
    J.evidenceIdentityChoice.enc { identities := is } = (JCodec.pslice J.evidenceIdentity).enc is ∧
    J.evidenceIdentityChoice.dec (.obj ms) {} = (J.evidenceIdentity.dec (.obj ms) {}).map (fun i => { identity := some i }) ∧
    J.evidenceIdentityChoice.dec (.arr js) {} =
      ((JCodec.pslice J.evidenceIdentity).dec (.arr js) .nil).map (fun is => { identities := is }) := by
  have hn : is.isNil = false := by cases is <;> first | rfl | exact absurd rfl h
  refine ⟨?_, ?_, ?_, ?_⟩
  · simp [J.evidenceIdentityChoice, PSlice.isNil]
  · simp [J.evidenceIdentityChoice, hn]
  · simp only [J.evidenceIdentityChoice]
    cases J.evidenceIdentity.dec (.obj ms) {} <;> rfl
  · simp only [J.evidenceIdentityChoice]
    cases (JCodec.pslice J.evidenceIdentity).dec (.arr js) .nil <;> rfl

/-- A certificate state is written as the alternative that is set.  It is read as a predefined one if it has a state, and
as a custom one if it has none. -/
theorem json_form_certificateState (p : PredefinedCertificateState) (q : CustomCertificateState)
    (ms : List (String × Json)) :
    J.certificateState.enc { predefined := some p } = J.predefinedCertificateState.enc p ∧
    J.certificateState.enc { custom := some q } = J.customCertificateState.enc q ∧
    (∀ s ≠ "", (called "state" ms).map Prod.snd = [.str s] → J.certificateState.dec (.obj ms) {} =
      (J.predefinedCertificateState.dec (.obj ms) {}).map fun p => { predefined := some p }) ∧
    (called "state" ms = [] → J.certificateState.dec (.obj ms) {} =
      (J.customCertificateState.dec (.obj ms) {}).map fun q => { custom := some q }) := by
  refine ⟨rfl, rfl, fun s hs h => ?_, fun h => ?_⟩
  · simp only [J.certificateState, peek_called_one h, if_pos hs]
    cases J.predefinedCertificateState.dec (.obj ms) {} <;> rfl
  · simp only [J.certificateState, peek_called_none h]
    cases J.customCertificateState.dec (.obj ms) {} <;> rfl

/-- Likewise for certificate extensions, by the name of a common extension. -/
theorem json_form_certificateExtension (p : CommonCertificateExtension) (q : CustomCertificateExtension)
    (ms : List (String × Json)) :
    J.certificateExtension.enc { common := some p } = J.commonCertificateExtension.enc p ∧
    J.certificateExtension.enc { custom := some q } = J.customCertificateExtension.enc q ∧
    (∀ s ≠ "", (called "commonExtensionName" ms).map Prod.snd = [.str s] → J.certificateExtension.dec (.obj ms) {} =
      (J.commonCertificateExtension.dec (.obj ms) {}).map fun p => { common := some p }) ∧
    (called "commonExtensionName" ms = [] → J.certificateExtension.dec (.obj ms) {} =
      (J.customCertificateExtension.dec (.obj ms) {}).map fun q => { custom := some q }) := by
  refine ⟨rfl, rfl, fun s hs h => ?_, fun h => ?_⟩
  · simp only [J.certificateExtension, peek_called_one h, if_pos hs]
    cases J.commonCertificateExtension.dec (.obj ms) {} <;> rfl
  · simp only [J.certificateExtension, peek_called_none h]
    cases J.customCertificateExtension.dec (.obj ms) {} <;> rfl

/-- A patent or a patent family is written as such, and read as a family if it has the identifier of one. -/
theorem json_form_patent (p : Patent) (q : PatentFamily) (ms : List (String × Json)) :
    J.patentChoice.enc { patent := some p } = J.patent.enc p ∧
    J.patentChoice.enc { patentFamily := some q } = J.patentFamily.enc q ∧
    (∀ s ≠ "", (called "familyId" ms).map Prod.snd = [.str s] → J.patentChoice.dec (.obj ms) {} =
      (J.patentFamily.dec (.obj ms) {}).map fun q => { patentFamily := some q }) ∧
    (called "familyId" ms = [] → J.patentChoice.dec (.obj ms) {} =
      (J.patent.dec (.obj ms) {}).map fun p => { patent := some p }) := by
  refine ⟨rfl, rfl, fun s hs h => ?_, fun h => ?_⟩
  · simp only [J.patentChoice, peek_called_one h, if_pos hs]
    cases J.patentFamily.dec (.obj ms) {} <;> rfl
  · simp only [J.patentChoice, peek_called_none h]
    cases J.patent.dec (.obj ms) {} <;> rfl

/-- An asserter is written under the name of the alternative, and the alternative is read from there. -/
theorem json_form_asserter (o : OrganizationalEntity) (i : OrganizationalContact) (r : BOMReference) (j : Json)
    (hj : j ≠ .null) :
    J.asserterChoice.enc { organization := some o } =
      (J.organizationalEntity.enc o).map (fun j => .obj [("organization", j)]) ∧
    J.asserterChoice.enc { individual := some i } =
      (J.organizationalContact.enc i).map (fun j => .obj [("individual", j)]) ∧
    J.asserterChoice.enc { bomRef := some r } = some (.obj [("ref", .str r.val)]) ∧
    J.asserterChoice.dec (.obj [("organization", j)]) {} =
      (J.organizationalEntity.dec j {}).map (fun o => { organization := some o }) ∧
    J.asserterChoice.dec (.obj [("individual", j)]) {} =
      (J.organizationalContact.dec j {}).map (fun i => { individual := some i }) ∧
    J.asserterChoice.dec (.obj [("ref", j)]) {} =
      (J.bomReference.dec j {}).map (fun r => { bomRef := some r }) := by
  have f1 : Json.foldKey "organization" ≠ Json.foldKey "individual" := by decide +kernel
  have f2 : Json.foldKey "organization" ≠ Json.foldKey "ref" := by decide +kernel
  have f3 : Json.foldKey "individual" ≠ Json.foldKey "ref" := by decide +kernel
  have same : ∀ n, J.rawMember n [(n, j)] = some j := fun n => by
    simp only [J.rawMember, selected, List.filter_cons_of_pos (p := fun m : String × Json => decide
      (Json.foldKey m.1 = Json.foldKey n)) (a := (n, j)) (l := []) (by simp), List.filter_nil, List.map_cons,
      List.map_nil, List.getLast?_singleton]
    all_goals first | rfl | (cases j <;> first | rfl | exact absurd rfl hj)
  have other : ∀ n m, Json.foldKey n ≠ Json.foldKey m → J.rawMember m [(n, j)] = none := fun n m h => by
    simp [J.rawMember, selected, h]
  refine ⟨rfl, rfl, rfl, ?_, ?_, ?_⟩
  · simp only [J.asserterChoice, same]
  · simp only [J.asserterChoice, same, other _ _ f1.symm]
  · simp only [J.asserterChoice, same, other _ _ f2.symm, other _ _ f3.symm]

open Classical in
/-- A dataset is written as an object with a reference or as component data.  It is read as a reference if it has one, and
as component data if not and if there are any. -/
theorem json_form_dataset (r : String) (hr : r ≠ "") (d : ComponentData) (ms : List (String × Json)) :
    J.mlDatasetChoice.enc { ref := r } = some (.obj [("ref", .str r)]) ∧
    J.mlDatasetChoice.enc { componentData := some d } = J.componentData.enc d ∧
    (∀ s ≠ "", (called "ref" ms).map Prod.snd = [.str s] → J.mlDatasetChoice.dec (.obj ms) {} = some { ref := s }) ∧
    (called "ref" ms = [] → J.mlDatasetChoice.dec (.obj ms) {} =
      (J.componentData.dec (.obj ms) {}).map fun d => if d = {} then {} else { componentData := some d }) := by
  have hz : ∀ d : ComponentData, d.isZero = true ↔ d = {} := fun d => by
    constructor
    · intro h
      cases d with | mk a b c e f g h' i k =>
      simp only [ComponentData.isZero, decide_eq_true_eq] at h
      obtain ⟨rfl, rfl, rfl, h4, rfl, h6, h7, rfl, h9⟩ := h
      cases e <;> simp at h4
      cases g <;> simp [PSlice.isNil] at h6
      cases h' <;> simp at h7
      cases k <;> simp at h9
      rfl
    · rintro rfl; rfl
  refine ⟨by simp [J.mlDatasetChoice, hr], rfl, fun s hs h => ?_, fun h => ?_⟩
  · simp only [J.mlDatasetChoice, peek_called_one h, if_pos hs]
  · simp only [J.mlDatasetChoice, peek_called_none h]
    cases hd : J.componentData.dec (.obj ms) {} with
    | none => rfl
    | some d =>
      by_cases h : d = {}
      · subst h; simp [ComponentData.isZero, PSlice.isNil]
      · simp [mt (hz d).1 h, h]

open Classical in
/-- An environment variable is written as a string or as a property, and read alike. -/
theorem json_form_environmentVariable (s : String) (hs : s ≠ "") (p : Property) (hp : p ≠ {})
    (ms : List (String × Json)) :
    J.environmentVariableChoice.enc { value := s } = some (.str s) ∧
    J.environmentVariableChoice.enc { property := some p } = J.property.enc p ∧
    J.environmentVariableChoice.dec (.str s) {} = some { value := s } ∧
    J.environmentVariableChoice.dec (.obj ms) {} =
      (J.property.dec (.obj ms) {}).map fun p => if p = {} then {} else { property := some p } := by
  have hz : ∀ p : Property, p.isZero = true ↔ p = {} := fun p => by
    cases p; simp [Property.isZero]
  refine ⟨by simp [J.environmentVariableChoice, hs], ?_, rfl, ?_⟩
  · simp [J.environmentVariableChoice, mt (hz p).1 hp]
  · simp only [J.environmentVariableChoice]
    cases hd : J.property.dec (.obj ms) {} with
    | none => rfl
    | some p =>
      by_cases h : p = {}
      · subst h; simp [Property.isZero]
      · simp [mt (hz p).1 h, h]

/-- The parts of IKEv2 transforms are written as references (version 1.6) or as objects (version 1.7). -/
theorem json_form_ikev2 :
    OrReference J.ikev2Auth (JCodec.struct J.ikev2AuthFields IKEv2Auth.toP IKEv2Auth.ofP) (·.bomRef)
      (fun x r => { x with bomRef := r }) ∧
    OrReference J.ikev2Enc (JCodec.struct J.ikev2EncFields IKEv2Enc.toP IKEv2Enc.ofP) (·.bomRef)
      (fun x r => { x with bomRef := r }) ∧
    OrReference J.ikev2Integ (JCodec.struct J.ikev2IntegFields IKEv2Integ.toP IKEv2Integ.ofP) (·.bomRef)
      (fun x r => { x with bomRef := r }) ∧
    OrReference J.ikev2Ke (JCodec.struct J.ikev2KeFields IKEv2Ke.toP IKEv2Ke.ofP) (·.bomRef)
      (fun x r => { x with bomRef := r }) ∧
    OrReference J.ikev2Prf (JCodec.struct J.ikev2PrfFields IKEv2Prf.toP IKEv2Prf.ofP) (·.bomRef)
      (fun x r => { x with bomRef := r }) := by
  refine ⟨?_, ?_, ?_, ?_, ?_⟩ <;>
    exact ⟨fun _ h => if_pos h, fun _ h => if_neg (fun n => n h), fun _ _ => rfl, fun _ _ => rfl⟩

/-- A custom state of a certificate is told from a predefined one by the members it has. -/
example : called "state" [("state", .str "active")] = [("state", Json.str "active")] ∧
    called "state" [("name", .str "x"), ("description", .null)] = [] := ⟨rfl, rfl⟩

end Verif.Props
