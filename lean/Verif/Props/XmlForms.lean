import Verif.Xml.ElementLaws
import Verif.Xml.CustomLaws
import Verif.Props.XmlElements

/-!
# C63 for the types with XML methods of their own

Which elements and attributes they are written as, and what each of these is read as.
-/

namespace Verif.Props

open Xml (textOf textKids sanitize)

set_option linter.unusedSectionVars false

variable [XFloatIO]

/-- The attributes of an expression: each left out if it is empty. -/
def expressionAttrs (ack ref : String) : List (String × String) :=
  (if ack = "" then [] else [("acknowledgement", sanitize ack)]) ++ (if ref = "" then [] else [("bom-ref", sanitize ref)])

/-- A reference as an element is its attribute `ref`. -/
theorem xml_form_reference (t : String) (r old : BOMReference) (s : String) :
    X.bomReference.enc t r = some (some (.elem t [("ref", sanitize r.val)] [])) ∧
    X.bomReference.dec (.elem t [("ref", s)] []) old = some ⟨s⟩ := ⟨rfl, rfl⟩

/-- A copyright is its text. -/
theorem xml_form_copyright (t : String) (c : Copyright) (as : List (String × String)) (ks : List Xml) :
    X.copyright.enc t c = some (some (.elem t [] (textKids (sanitize c.text)))) ∧
    X.copyright.dec (.elem t as ks) {} = some { text := textOf ks } := ⟨rfl, rfl⟩

theorem dependencyRefs_written (n : String) (rs : List String) :
    XField.encList n true X.dependencyRef rs = some (rs.map fun r => .elem n [("ref", sanitize r)] []) := by
  induction rs with
  | nil => rfl
  | cons r rs ih => simp only [XField.encList, ih]; rfl

theorem dependencyRefs_read {β : Type} (F : XFields β) (n : String) (get : β → PSlice String) (put : β → PSlice String → β)
    (h : ∀ r b, F.setKid (.elem n [("ref", r)] []) b = some (put b (XField.push (get b) r)))
    (hg : ∀ b v, get (put b v) = v) (hp : ∀ b v w, put (put b v) w = put b w) (rs : List String) :
    ∀ b, XField.decAll F.setKid (rs.map fun r => .elem n [("ref", r)] []) b =
      some (if rs = [] then b else put b (.list ((get b).elems ++ rs))) := by
  induction rs with
  | nil => intro b; rfl
  | cons r rs ih =>
    intro b
    simp only [List.map_cons, XField.decAll, h, ih, XField.push]
    by_cases e : rs = []
    · subst e; simp
    · rw [if_neg e, if_neg (by simp), hg, hp]; simp [PSlice.elems]

/-- A dependency: the attribute is the reference, the elements `dependency` what it depends on, the elements `provides` what
it provides, each again by the attribute. -/
theorem xml_form_dependency (t : String) (d old : Dependency) (r : String) (ds ps : List String) :
    X.dependency.enc t d = some (some (.elem t [("ref", sanitize d.ref)]
      (d.dependencies.elems.map (fun r => .elem "dependency" [("ref", sanitize r)] []) ++
        d.provides.elems.map fun r => .elem "provides" [("ref", sanitize r)] []))) ∧
    X.dependency.dec (.elem t [("ref", r)] (ds.map (fun r => .elem "dependency" [("ref", r)] []) ++
        ps.map fun r => .elem "provides" [("ref", r)] [])) old =
      some { ref := r, dependencies := XField.ofList ds, provides := XField.ofList ps } := by
  constructor
  · show ((X.dependencyFields.encKids (Dependency.toP d)).map _) = _
    simp only [X.dependencyFields, XFields.encKids, XField.list, Dependency.toP, dependencyRefs_written]
    simp [XFields.encAttrs, XText.string]
  · show (X.dependencyFields.dec _ _).map Dependency.ofP = _
    have e1 := dependencyRefs_read X.dependencyFields "dependency" (fun p => p.2.1) (fun p v => (p.1, v, p.2.2))
      (fun _ _ => rfl) (fun _ _ => rfl) (fun _ _ _ => rfl) ds
    have e2 := dependencyRefs_read X.dependencyFields "provides" (fun p => p.2.2.1) (fun p v => (p.1, p.2.1, v, ()))
      (fun _ _ => rfl) (fun _ _ => rfl) (fun _ _ _ => rfl) ps
    have h0 : X.dependencyFields.decAttrs [("ref", r)] (Dependency.toP X.dependency.zero) = some (r, .nil, .nil, ()) := rfl
    simp only [XFields.dec, Xml.attrs, Xml.kids]
    rw [show (Dependency.toP (XCodec.struct X.dependencyFields Dependency.toP Dependency.ofP).zero)
      = Dependency.toP X.dependency.zero from rfl, h0]
    simp only [XField.decAll_append, e1, Option.bind_some, e2]
    cases ds <;> cases ps <;> rfl

/-- Licenses, one after the other. -/
theorem xml_form_licenses_append (t : String) (ls ms : List LicenseChoice) (ks js : List Xml)
    (h : X.licenses.enc t ls = some (some (.elem t [] ks))) (h' : X.licenses.enc t ms = some (some (.elem t [] js)))
    (as : List (String × String)) (xs ys : List Xml) (old : List LicenseChoice) :
    X.licenses.enc t (ls ++ ms) = some (some (.elem t [] (ks ++ js))) ∧
    X.licenses.dec (.elem t as (xs ++ ys)) old =
      (X.licenses.dec (.elem t as xs) old).bind fun a => (X.licenses.dec (.elem t as ys) old).map (a ++ ·) := by
  constructor
  · have inv : ∀ {ls ks}, X.licenses.enc t ls = some (some (.elem t [] ks)) →
        ls ≠ [] ∧ X.encEach X.licenseChoiceEnc ls = some ks := by
      intro ls ks h
      cases ls with
      | nil => simp [X.licenses] at h
      | cons l ls =>
        obtain ⟨a, ha, e⟩ := Option.map_eq_some_iff.1 h
        simp only [Option.some.injEq, Xml.elem.injEq, true_and] at e
        exact ⟨by simp, e ▸ ha⟩
    obtain ⟨h1, h2⟩ := inv h
    obtain ⟨_, h2'⟩ := inv h'
    have app : ∀ (ls : List LicenseChoice) ks, X.encEach X.licenseChoiceEnc ls = some ks →
        X.encEach X.licenseChoiceEnc (ls ++ ms) = some (ks ++ js) := by
      intro ls
      induction ls with
      | nil => intro ks h; cases h; simpa using h2'
      | cons l ls ih =>
        intro ks h
        simp only [X.encEach] at h
        simp only [List.cons_append, X.encEach]
        cases hl : X.licenseChoiceEnc l with
        | none => rw [hl] at h; simp at h
        | some k =>
          rw [hl] at h
          obtain ⟨k', hk', rfl⟩ := Option.map_eq_some_iff.1 h
          simp [ih k' hk']
    cases ls with
    | nil => exact absurd rfl h1
    | cons l ls =>
      show (X.encEach X.licenseChoiceEnc (l :: ls ++ ms)).map _ = _
      rw [app _ _ h2]; rfl
  · exact decEach_append _ xs ys

/-- A license is an element `license`. -/
theorem xml_form_licenses_license (t : String) (l : License) (as : List (String × String)) (ks : List Xml) :
    X.licenses.enc t [{ license := some l }] = (X.license.enc "license" l).map (fun o => some (.elem t [] o.toList)) ∧
    X.licenses.dec (.elem t [] [.elem "license" as ks]) [] =
      (X.license.dec (.elem "license" as ks) {}).map fun l => [{ license := some l }] := by
  constructor
  · show (X.encEach X.licenseChoiceEnc _).map _ = _
    simp only [X.encEach, X.licenseChoiceEnc]
    cases X.license.enc "license" l <;> simp
  · show X.decEach X.licenseChoiceDec [.elem "license" as ks] = _
    rw [decEach_single]; rfl

/-- An expression without details is an element `expression` with the expression as its text. -/
theorem xml_form_licenses_expression (t e r : String) (a : Option String) (he : e ≠ "") (s ack ref : String) :
    X.licenses.enc t [{ expression := e, acknowledgement := a, bomRef := r }] =
      some (some (.elem t [] [.elem "expression" (expressionAttrs (a.getD "") r) (textKids (sanitize e))])) ∧
    X.licenses.dec (.elem t [] [.elem "expression" [("acknowledgement", ack), ("bom-ref", ref)] (textKids s)]) [] =
      some [{ expression := s, acknowledgement := if ack = "" then none else some ack, bomRef := ref }] := by
  constructor
  · show (X.encEach X.licenseChoiceEnc _).map _ = _
    simp only [X.encEach, X.licenseChoiceEnc, if_pos he, PSlice.isNil, if_true]
    simp only [XCodec.struct, X.licenseExpressionFields, XFields.encKids, XFields.encAttrs, id, XText.string]
    unfold expressionAttrs
    by_cases h1 : a.getD "" = "" <;> by_cases h2 : r = "" <;> simp [h1, h2]
  · show X.decEach X.licenseChoiceDec (Xml.kids _) = _
    simp only [Xml.kids, decEach_single]
    have h1 : X.licenseExpressionFields.dec (.elem "expression" [("acknowledgement", ack), ("bom-ref", ref)] (textKids s))
        X.licenseExpressionFields.zero = some (s, ack, ref, ()) := by
      have h2 : XField.decAll X.licenseExpressionFields.setKid (textKids s) ("", ack, ref, ()) = some ("", ack, ref, ()) := by
        unfold textKids; split <;> rfl
      have h3 : X.licenseExpressionFields.decAttrs [("acknowledgement", ack), ("bom-ref", ref)]
        X.licenseExpressionFields.zero = some ("", ack, ref, ()) := rfl
      simp only [XFields.dec, Xml.attrs, Xml.kids, h3, h2, textOf_textKids]
      rfl
    simp only [X.licenseChoiceDec, if_true, h1, Option.map_some, X.expressionChoice, ite_not]

/-- An expression with details is an element `expression-detailed` with the expression as an attribute and the details as
elements `details`. -/
theorem xml_form_licenses_detailed (t e r : String) (a : Option String) (ds : PSlice LicenseExpressionDetail)
    (he : e ≠ "") (hd : ds ≠ .nil) (s ack ref : String) (as : List (String × String)) (ks : List Xml) :
    X.licenses.enc t [{ expression := e, acknowledgement := a, bomRef := r, expressionDetails := ds }] =
      ((XField.list "details" false X.licenseExpressionDetail).enc ds).map (fun js =>
        some (.elem t [] [.elem "expression-detailed" (("expression", sanitize e) :: expressionAttrs (a.getD "") r) js])) ∧
    X.licenses.dec (.elem t [] [.elem "expression-detailed" [("expression", s), ("acknowledgement", ack), ("bom-ref", ref)]
        [.elem "details" as ks]]) [] =
      (X.licenseExpressionDetail.dec (.elem "details" as ks) {}).map (fun d =>
        [{ expression := s, acknowledgement := if ack = "" then none else some ack, bomRef := ref,
           expressionDetails := .list [d] }]) := by
  have hn : ds.isNil = false := by cases ds <;> first | rfl | exact absurd rfl hd
  constructor
  · show (X.encEach X.licenseChoiceEnc _).map _ = _
    simp only [X.encEach, X.licenseChoiceEnc, if_pos he, hn, Bool.false_eq_true, if_false]
    simp only [XCodec.struct, X.licenseExpressionDetailedFields, XFields.encKids, XFields.encAttrs, id, XText.string]
    unfold expressionAttrs
    cases (XField.list "details" false X.licenseExpressionDetail).enc ds with
    | none => rfl
    | some js => by_cases h1 : a.getD "" = "" <;> by_cases h2 : r = "" <;> simp [h1, h2]
  · show X.decEach X.licenseChoiceDec (Xml.kids _) = _
    simp only [Xml.kids, decEach_single]
    have h1 : X.licenseExpressionDetailedFields.dec (.elem "expression-detailed"
          [("expression", s), ("acknowledgement", ack), ("bom-ref", ref)] [.elem "details" as ks])
        X.licenseExpressionDetailedFields.zero =
        (X.licenseExpressionDetail.dec (.elem "details" as ks) {}).map fun d => (s, ack, ref, .list [d], ()) := by
      have h3 : X.licenseExpressionDetailedFields.decAttrs [("expression", s), ("acknowledgement", ack), ("bom-ref", ref)]
        X.licenseExpressionDetailedFields.zero = some (s, ack, ref, .nil, ()) := rfl
      have h4 : X.licenseExpressionDetailedFields.setKid (.elem "details" as ks) (s, ack, ref, .nil, ()) =
          (X.licenseExpressionDetail.dec (.elem "details" as ks) {}).map fun d => (s, ack, ref, .list [d], ()) := by
        show Option.map _ (Option.map _ (Option.map _ (Option.map _ (Option.map _ (X.licenseExpressionDetail.dec
          (.elem "details" as ks) {}))))) = _
        cases X.licenseExpressionDetail.dec (.elem "details" as ks) {} <;> rfl
      simp only [XFields.dec, Xml.attrs, Xml.kids, h3, XField.decAll, h4]
      cases X.licenseExpressionDetail.dec (.elem "details" as ks) {} <;> rfl
    have ne : ("expression-detailed" : String) ≠ "expression" := by decide
    simp only [X.licenseChoiceDec, if_neg ne, if_true, h1, Option.map_map]
    congr 1
    funext d
    simp only [Function.comp, X.expressionChoice, ite_not]

/-- The detail of an expression: the attribute is the license, the elements are its text and URL. -/
theorem xml_form_expressionDetail :
    Element X.licenseExpressionDetail ["license-identifier"] ["text", "url"] (fun (x : LicenseExpressionDetail) _ => { x with bomRef := "" }) ∧
    AttrField X.licenseExpressionDetail (fun x _ => { x with bomRef := "" }) "license-identifier" true XText.string
      (·.licenseIdentifier) (fun x v => { x with licenseIdentifier := v, bomRef := "" }) ∧
    ElemField X.licenseExpressionDetail (fun x _ => { x with bomRef := "" }) (.ptr "text" X.attachedText) (·.text)
      (fun x v => { x with text := v, bomRef := "" }) ∧
    ElemField X.licenseExpressionDetail (fun x _ => { x with bomRef := "" }) (.plain "url" true X.string) (·.url)
      (fun x v => { x with url := v, bomRef := "" }) := by
  have hN : XFields.Named X.licenseExpressionDetailFields := by
    have : XNames X.licenseExpressionDetailFields := by unfold X.licenseExpressionDetailFields; infer_instance
    exact this.named
  have ha : XFields.attrNames X.licenseExpressionDetailFields |>.Nodup :=
    show (["license-identifier"] : List String).Nodup by decide +kernel
  have he : XFields.elemNames X.licenseExpressionDetailFields |>.Nodup :=
    show (["text", "url"] : List String).Nodup by decide +kernel
  exact ⟨struct_element (F := X.licenseExpressionDetailFields) (fun _ => rfl) hN (fun _ _ => rfl) _ _ rfl rfl,
    struct_attr (F := X.licenseExpressionDetailFields) .here (fun _ => rfl) ha (fun _ _ => rfl) (fun _ => rfl) (fun _ _ => rfl),
    struct_elem (F := X.licenseExpressionDetailFields) (.attr .here) (fun _ => rfl) hN he (fun _ _ => rfl) (fun _ => rfl) (fun _ _ => rfl),
    struct_elem (F := X.licenseExpressionDetailFields) (.attr (.elem .here)) (fun _ => rfl) hN he (fun _ _ => rfl) (fun _ => rfl) (fun _ _ => rfl)⟩

/-- An environment variable is an element `environmentVar` if it is a property, and an element `value` if it is a value. -/
theorem xml_form_environmentVariables (t v : String) (hv : v ≠ "") (p : Property) (as : List (String × String)) (ks : List Xml) :
    X.environmentVariables.enc t [{ property := some p }, { value := v }] =
      (X.property.enc "environmentVar" p).map (fun o =>
        some (.elem t [] (o.toList ++ [.elem "value" [] (textKids (sanitize v))]))) ∧
    X.environmentVariables.dec (.elem t [] [.elem "environmentVar" as ks]) [] =
      (X.property.dec (.elem "environmentVar" as ks) {}).map (fun p => [{ property := some p }]) ∧
    X.environmentVariables.dec (.elem t [] [.elem "value" as ks]) [] = some [{ value := textOf ks }] := by
  refine ⟨?_, ?_, rfl⟩
  · show (X.encEach X.environmentVariableEnc _).map _ = _
    simp only [X.encEach, X.environmentVariableEnc, if_pos hv]
    cases X.property.enc "environmentVar" p with
    | none => simp
    | some o => simp [XCodec.simple, XText.string]
  · show X.decEach X.environmentVariableDec [.elem "environmentVar" as ks] = _
    rw [decEach_single]; rfl

/-- A certificate state is written as the alternative that is set, and read as a predefined one if it has a state. -/
theorem xml_form_certificateState (t : String) (p : PredefinedCertificateState) (q : CustomCertificateState)
    (s r n d : String) (hs : s ≠ "") :
    X.certificateState.enc t { predefined := some p } = some (some (.elem t []
      (.elem "state" [] (textKids (sanitize p.state)) ::
        if p.reason = "" then [] else [.elem "reason" [] (textKids (sanitize p.reason))]))) ∧
    X.certificateState.enc t { custom := some q } = some (some (.elem t []
      (.elem "name" [] (textKids (sanitize q.name)) ::
        ((if q.description = "" then [] else [.elem "description" [] (textKids (sanitize q.description))]) ++
          if q.reason = "" then [] else [.elem "reason" [] (textKids (sanitize q.reason))])))) ∧
    X.certificateState.dec (.elem t [] [.elem "state" [] (textKids s), .elem "reason" [] (textKids r)]) {} =
      some { predefined := some { state := s, reason := r } } ∧
    X.certificateState.dec (.elem t [] [.elem "name" [] (textKids n), .elem "description" [] (textKids d),
        .elem "reason" [] (textKids r)]) {} =
      some { custom := some { name := n, description := d, reason := r } } := by
  refine ⟨?_, ?_, ?_, ?_⟩
  · simp only [X.certificateState, X.predefinedCertificateState, XCodec.struct, XFields.encKids, XFields.encAttrs,
      PredefinedCertificateState.toP, XField.plain, XCodec.simple, XText.string]
    by_cases h : p.reason = "" <;> simp [h]
  · simp only [X.certificateState, X.customCertificateState, XCodec.struct, XFields.encKids, XFields.encAttrs,
      CustomCertificateState.toP, XField.plain, XCodec.simple, XText.string]
    by_cases h : q.reason = "" <;> by_cases h' : q.description = "" <;> simp [h, h']
  · have h : X.certificateStateRaw.dec (.elem t [] [.elem "state" [] (textKids s), .elem "reason" [] (textKids r)])
        X.certificateStateRaw.zero = some (textOf (textKids s), "", "", textOf (textKids r), ()) := rfl
    simp only [X.certificateState, h, textOf_textKids, if_pos hs]
  · have h : X.certificateStateRaw.dec (.elem t [] [.elem "name" [] (textKids n), .elem "description" [] (textKids d),
        .elem "reason" [] (textKids r)]) X.certificateStateRaw.zero =
          some ("", textOf (textKids n), textOf (textKids d), textOf (textKids r), ()) := rfl
    simp only [X.certificateState, h, textOf_textKids, ne_eq, not_true, if_false]

/-- Likewise for certificate extensions. -/
theorem xml_form_certificateExtension (t : String) (p : CommonCertificateExtension) (q : CustomCertificateExtension)
    (n v : String) (hn : n ≠ "") :
    X.certificateExtension.enc t { common := some p } = some (some (.elem t []
      (.elem "commonExtensionName" [] (textKids (sanitize p.name)) ::
        if p.value = "" then [] else [.elem "commonExtensionValue" [] (textKids (sanitize p.value))]))) ∧
    X.certificateExtension.enc t { custom := some q } = some (some (.elem t []
      (.elem "customExtensionName" [] (textKids (sanitize q.name)) ::
        if q.value = "" then [] else [.elem "customExtensionValue" [] (textKids (sanitize q.value))]))) ∧
    X.certificateExtension.dec (.elem t [] [.elem "commonExtensionName" [] (textKids n),
        .elem "commonExtensionValue" [] (textKids v)]) {} = some { common := some { name := n, value := v } } ∧
    X.certificateExtension.dec (.elem t [] [.elem "customExtensionName" [] (textKids n),
        .elem "customExtensionValue" [] (textKids v)]) {} = some { custom := some { name := n, value := v } } := by
  refine ⟨?_, ?_, ?_, ?_⟩
  · simp only [X.certificateExtension, X.commonCertificateExtension, XCodec.struct, XFields.encKids, XFields.encAttrs,
      CommonCertificateExtension.toP, XField.plain, XCodec.simple, XText.string]
    by_cases h : p.value = "" <;> simp [h]
  · simp only [X.certificateExtension, X.customCertificateExtension, XCodec.struct, XFields.encKids, XFields.encAttrs,
      CustomCertificateExtension.toP, XField.plain, XCodec.simple, XText.string]
    by_cases h : q.value = "" <;> simp [h]
  · have h : X.certificateExtensionRaw.dec (.elem t [] [.elem "commonExtensionName" [] (textKids n),
        .elem "commonExtensionValue" [] (textKids v)]) X.certificateExtensionRaw.zero =
          some (textOf (textKids n), textOf (textKids v), "", "", ()) := rfl
    simp only [X.certificateExtension, h, textOf_textKids, if_pos hn]
  · have h : X.certificateExtensionRaw.dec (.elem t [] [.elem "customExtensionName" [] (textKids n),
        .elem "customExtensionValue" [] (textKids v)]) X.certificateExtensionRaw.zero =
          some ("", "", textOf (textKids n), textOf (textKids v), ()) := rfl
    simp only [X.certificateExtension, h, textOf_textKids, ne_eq, not_true, if_false]

/-- An asserter is an element called after the alternative. -/
theorem xml_form_asserter (t : String) (o : OrganizationalEntity) (i : OrganizationalContact) (r : BOMReference)
    (as : List (String × String)) (ks : List Xml) (s : String) (old : AsserterChoice) :
    X.asserterChoice.enc t { organization := some o } =
      (X.organizationalEntity.enc "organization" o).map (fun x => some (.elem t [] x.toList)) ∧
    X.asserterChoice.enc t { individual := some i } =
      (X.organizationalContact.enc "contact" i).map (fun x => some (.elem t [] x.toList)) ∧
    X.asserterChoice.enc t { bomRef := some r } =
      some (some (.elem t [] [.elem "ref" [("ref", sanitize r.val)] []])) ∧
    X.asserterChoice.dec (.elem t [] [.elem "organization" as ks]) old =
      (X.organizationalEntity.dec (.elem "organization" as ks) {}).map (fun o => { organization := some o }) ∧
    X.asserterChoice.dec (.elem t [] [.elem "contact" as ks]) old =
      (X.organizationalContact.dec (.elem "contact" as ks) {}).map (fun i => { individual := some i }) ∧
    X.asserterChoice.dec (.elem t [] [.elem "ref" [("ref", s)] []]) old = some { bomRef := some ⟨s⟩ } := by
  refine ⟨?_, ?_, rfl, ?_, ?_, rfl⟩
  · simp only [X.asserterChoice, XCodec.struct, XFields.encKids, XFields.encAttrs, XField.ptr]
    cases X.organizationalEntity.enc "organization" o <;> simp
  · simp only [X.asserterChoice, XCodec.struct, XFields.encKids, XFields.encAttrs, XField.ptr]
    cases X.organizationalContact.enc "contact" i <;> simp
  · have hk : X.asserterChoiceRaw.setKid (.elem "organization" as ks) (none, none, none, ()) =
        (X.organizationalEntity.dec (.elem "organization" as ks) {}).map fun o => (some o, none, none, ()) := by
      show Option.map _ (Option.map _ (X.organizationalEntity.dec (.elem "organization" as ks) {})) = _
      cases X.organizationalEntity.dec (.elem "organization" as ks) {} <;> rfl
    have h0 : X.asserterChoiceRaw.zero = (none, none, none, ()) := rfl
    simp only [X.asserterChoice, XFields.dec, Xml.attrs, Xml.kids, XFields.decAttrs, XField.decAll, h0, hk]
    cases X.organizationalEntity.dec (.elem "organization" as ks) {} <;> rfl
  · have hk : X.asserterChoiceRaw.setKid (.elem "contact" as ks) (none, none, none, ()) =
        (X.organizationalContact.dec (.elem "contact" as ks) {}).map fun i => (none, some i, none, ()) := by
      show Option.map _ (Option.map _ (Option.map _ (X.organizationalContact.dec (.elem "contact" as ks) {}))) = _
      cases X.organizationalContact.dec (.elem "contact" as ks) {} <;> rfl
    have h0 : X.asserterChoiceRaw.zero = (none, none, none, ()) := rfl
    simp only [X.asserterChoice, XFields.dec, Xml.attrs, Xml.kids, XFields.decAttrs, XField.decAll, h0, hk]
    cases X.organizationalContact.dec (.elem "contact" as ks) {} <;> rfl

theorem decAttrs_elem {α β : Type} (f : XField α) (F : XFields β) (as : List (String × String)) :
    ∀ (a : α) (b : β), (XFields.elem f F).decAttrs as (a, b) = (F.decAttrs as b).map (a, ·) := by
  induction as with
  | nil => intro a b; rfl
  | cons kv as ih =>
    intro a b
    simp only [XFields.decAttrs, XFields.setAttr]
    cases F.setAttr kv b with
    | none => rfl
    | some b' => exact ih a b'

theorem decAll_elem {α β : Type} (f : XField α) (F : XFields β) (ks : List Xml) (h : elemsCalled f.name ks = []) :
    ∀ (a : α) (b : β), XField.decAll (XFields.elem f F).setKid ks (a, b) = (XField.decAll F.setKid ks b).map (a, ·) := by
  induction ks with
  | nil => intro a b; rfl
  | cons k ks ih =>
    intro a b
    have hk : k.isElem f.name = false := by
      cases e : k.isElem f.name
      · rfl
      · simp [elemsCalled, e] at h
    have h' : elemsCalled f.name ks = [] := by simpa [elemsCalled, hk] using h
    simp only [XField.decAll, XFields.setKid, hk, Bool.false_eq_true, if_false]
    cases F.setKid k b with
    | none => rfl
    | some b' => exact ih h' a b'

theorem dec_elem_absent {α β : Type} (f : XField α) (F : XFields β) (t : String) (as : List (String × String)) (ks : List Xml)
    (h : elemsCalled f.name ks = []) (a : α) (b : β) :
    (XFields.elem f F).dec (.elem t as ks) (a, b) = (F.dec (.elem t as ks) b).map (a, ·) := by
  simp only [XFields.dec, Xml.attrs, Xml.kids, decAttrs_elem]
  cases F.decAttrs as b with
  | none => rfl
  | some b1 =>
    simp only [Option.map_some, decAll_elem f F ks h]
    cases XField.decAll F.setKid ks b1 <;> rfl

/-- A data set is an element `ref` if it is a reference, and otherwise what data of a component are. -/
theorem xml_form_dataset (t r s : String) (hr : r ≠ "") (hs : s ≠ "") (d : ComponentData) (as : List (String × String))
    (ks : List Xml) (hk : elemsCalled "ref" ks = []) :
    X.mlDatasetChoice.enc t { ref := r } = some (some (.elem t [] [.elem "ref" [] (textKids (sanitize r))])) ∧
    X.mlDatasetChoice.enc t { componentData := some d } = X.componentData.enc t d ∧
    X.mlDatasetChoice.dec (.elem t [] [.elem "ref" [] (textKids s)]) {} = some { ref := s } ∧
    X.mlDatasetChoice.dec (.elem t as ks) {} = (X.componentData.dec (.elem t as ks) {}).map (fun d =>
      { componentData := if d.isZero then none else some d }) := by
  refine ⟨?_, rfl, ?_, ?_⟩
  · simp only [X.mlDatasetChoice, if_pos hr]; rfl
  · have h : X.mlDatasetChoiceFields.dec (.elem t [] [.elem "ref" [] (textKids s)]) X.mlDatasetChoiceFields.zero =
        some (textOf (textKids s), X.componentDataFields.zero) := rfl
    simp only [X.mlDatasetChoice, h, textOf_textKids, if_pos hs]
  · have h := dec_elem_absent (.plain "ref" false X.string) X.componentDataFields t as ks hk "" X.componentDataFields.zero
    have h' : X.mlDatasetChoiceFields.dec (.elem t as ks) X.mlDatasetChoiceFields.zero = _ := h
    have h2 : X.componentData.dec (.elem t as ks) {} =
      (X.componentDataFields.dec (.elem t as ks) X.componentDataFields.zero).map ComponentData.ofP := rfl
    simp only [X.mlDatasetChoice, h', h2]
    cases X.componentDataFields.dec (.elem t as ks) X.componentDataFields.zero with
    | none => rfl
    | some p =>
      simp only [Option.map_some, ne_eq, not_true, if_false]
      cases (ComponentData.ofP p).isZero <;> rfl

theorem decAttrs_chardata {β : Type} (F : XFields β) (as : List (String × String)) :
    ∀ (a : String) (b : β), (XFields.chardata F).decAttrs as (a, b) = (F.decAttrs as b).map (a, ·) := by
  induction as with
  | nil => intro a b; rfl
  | cons kv as ih =>
    intro a b
    simp only [XFields.decAttrs, XFields.setAttr]
    cases F.setAttr kv b with
    | none => rfl
    | some b' => exact ih a b'

theorem decAll_chardata {β : Type} (F : XFields β) (ks : List Xml) :
    ∀ (a : String) (b : β), XField.decAll (XFields.chardata F).setKid ks (a, b) = (XField.decAll F.setKid ks b).map (a, ·) := by
  induction ks with
  | nil => intro a b; rfl
  | cons k ks ih =>
    intro a b
    simp only [XField.decAll, XFields.setKid]
    cases F.setKid k b with
    | none => rfl
    | some b' => exact ih a b'

/-- A reference is written as text, everything else as the other fields.  Text alone is read as a reference, and elements
without text as the other fields. -/
theorem ikev2_form {σ β : Type} (F : XFields β) (toP : σ → BOMReference × β) (ofP : BOMReference × β → σ) (isRef : β → Bool)
    (hF : ∀ s b, F.setText s b = b) (h0 : isRef F.zero = true) (h2 : ∀ p, toP (ofP p) = p) (t : String) (v : σ)
    (s : String) (hs : Xml.trim s ≠ "") (as : List (String × String)) (ks : List Xml) (hk : Xml.trim (textOf ks) = "") :
    ((toP v).1.val ≠ "" → (X.ikev2 F toP ofP isRef).enc t v =
      some (some (.elem t [] (textKids (sanitize (toP v).1.val))))) ∧
    ((toP v).1.val = "" → (X.ikev2 F toP ofP isRef).enc t v = (XCodec.struct (.skip ⟨""⟩ F) toP ofP).enc t v) ∧
    (X.ikev2 F toP ofP isRef).dec (.elem t [] [.text s]) (ofP (⟨""⟩, F.zero)) = some (ofP (⟨Xml.trim s⟩, F.zero)) ∧
    (X.ikev2 F toP ofP isRef).dec (.elem t as ks) (ofP (⟨""⟩, F.zero)) =
      (XCodec.struct (.skip ⟨""⟩ F) toP ofP).dec (.elem t as ks) (ofP (⟨""⟩, F.zero)) := by
  refine ⟨fun h => by simp only [X.ikev2, if_pos h], fun h => by simp only [X.ikev2, h, ne_eq, not_true, if_false], ?_, ?_⟩
  · have h1 : (XFields.chardata F).dec (.elem t [] [.text s]) ("", F.zero) = some (textOf [.text s], F.zero) := by
      simp only [XFields.dec, Xml.attrs, Xml.kids, XFields.decAttrs, decAll_chardata, XField.decAll, XFields.setKid_text', Option.map_some]
      rfl
    have h3 : textOf [.text s] = s := by simp [textOf]
    simp only [X.ikev2, h1, h3, if_pos (show Xml.trim s ≠ "" ∧ isRef F.zero = true from ⟨hs, h0⟩), h2]
  · have skipA : ∀ (as : List (String × String)) (r : BOMReference) (b : β),
        (XFields.skip (⟨""⟩ : BOMReference) F).decAttrs as (r, b) = (F.decAttrs as b).map (r, ·) := by
      intro as
      induction as with
      | nil => intro r b; rfl
      | cons kv as ih =>
        intro r b
        simp only [XFields.decAttrs, XFields.setAttr]
        cases F.setAttr kv b with
        | none => rfl
        | some b' => exact ih r b'
    have skipK : ∀ (ks : List Xml) (r : BOMReference) (b : β),
        XField.decAll (XFields.skip (⟨""⟩ : BOMReference) F).setKid ks (r, b) = (XField.decAll F.setKid ks b).map (r, ·) := by
      intro ks
      induction ks with
      | nil => intro r b; rfl
      | cons k ks ih =>
        intro r b
        simp only [XField.decAll, XFields.setKid]
        cases F.setKid k b with
        | none => rfl
        | some b' => exact ih r b'
    simp only [X.ikev2, XCodec.struct, XFields.dec, Xml.attrs, Xml.kids, decAttrs_chardata, skipA, h2]
    cases F.decAttrs as F.zero with
    | none => rfl
    | some b1 =>
      simp only [Option.map_some, decAll_chardata, skipK]
      cases XField.decAll F.setKid ks b1 with
      | none => rfl
      | some b2 =>
        simp only [Option.map_some, XFields.setText, hk, ne_eq, not_true, false_and, if_false, hF]

/-- The five kinds of IKEv2 transforms: a reference is written as text, and text is read as a reference. -/
theorem xml_form_ikev2_reference (t : String) (r s : String) (hr : r ≠ "") (hs : Xml.trim s ≠ "") :
    (X.ikev2Auth.enc t { bomRef := ⟨r⟩ } = some (some (.elem t [] (textKids (sanitize r)))) ∧
      X.ikev2Auth.dec (.elem t [] [.text s]) {} = some { bomRef := ⟨Xml.trim s⟩ }) ∧
    (X.ikev2Enc.enc t { bomRef := ⟨r⟩ } = some (some (.elem t [] (textKids (sanitize r)))) ∧
      X.ikev2Enc.dec (.elem t [] [.text s]) {} = some { bomRef := ⟨Xml.trim s⟩ }) ∧
    (X.ikev2Integ.enc t { bomRef := ⟨r⟩ } = some (some (.elem t [] (textKids (sanitize r)))) ∧
      X.ikev2Integ.dec (.elem t [] [.text s]) {} = some { bomRef := ⟨Xml.trim s⟩ }) ∧
    (X.ikev2Ke.enc t { bomRef := ⟨r⟩ } = some (some (.elem t [] (textKids (sanitize r)))) ∧
      X.ikev2Ke.dec (.elem t [] [.text s]) {} = some { bomRef := ⟨Xml.trim s⟩ }) ∧
    (X.ikev2Prf.enc t { bomRef := ⟨r⟩ } = some (some (.elem t [] (textKids (sanitize r)))) ∧
      X.ikev2Prf.dec (.elem t [] [.text s]) {} = some { bomRef := ⟨Xml.trim s⟩ }) := by
  have e0 : Xml.trim (textOf []) = "" := by decide +kernel
  refine ⟨?_, ?_, ?_, ?_, ?_⟩
  · have h := ikev2_form X.ikev2AuthFields IKEv2Auth.toP IKEv2Auth.ofP (fun p => p.1 = "" ∧ p.2.1 = "") (fun _ _ => rfl) rfl
      (fun _ => rfl) t { bomRef := ⟨r⟩ } s hs [] [] e0
    exact ⟨h.1 hr, h.2.2.1⟩
  · have h := ikev2_form X.ikev2EncFields IKEv2Enc.toP IKEv2Enc.ofP (fun p => p.1 = "" ∧ p.2.2.1 = "" ∧ p.2.1.isNone)
      (fun _ _ => rfl) rfl (fun _ => rfl) t { bomRef := ⟨r⟩ } s hs [] [] e0
    exact ⟨h.1 hr, h.2.2.1⟩
  · have h := ikev2_form X.ikev2IntegFields IKEv2Integ.toP IKEv2Integ.ofP (fun p => p.1 = "" ∧ p.2.1 = "") (fun _ _ => rfl) rfl
      (fun _ => rfl) t { bomRef := ⟨r⟩ } s hs [] [] e0
    exact ⟨h.1 hr, h.2.2.1⟩
  · have h := ikev2_form X.ikev2KeFields IKEv2Ke.toP IKEv2Ke.ofP (fun p => p.2.1 = "" ∧ p.1.isNone) (fun _ _ => rfl) rfl
      (fun _ => rfl) t { bomRef := ⟨r⟩ } s hs [] [] e0
    exact ⟨h.1 hr, h.2.2.1⟩
  · have h := ikev2_form X.ikev2PrfFields IKEv2Prf.toP IKEv2Prf.ofP (fun p => p.1 = "" ∧ p.2.1 = "") (fun _ _ => rfl) rfl
      (fun _ => rfl) t { bomRef := ⟨r⟩ } s hs [] [] e0
    exact ⟨h.1 hr, h.2.2.1⟩

/-- Without a reference they are written and read as `xml_elements_ikev2Auth` and the like say. -/
theorem xml_form_ikev2_fields (t : String) (as : List (String × String)) (ks : List Xml) (hk : Xml.trim (textOf ks) = "")
    (a : IKEv2Auth) (ha : a.bomRef.val = "") (e : IKEv2Enc) (he : e.bomRef.val = "") (i : IKEv2Integ) (hi : i.bomRef.val = "")
    (k : IKEv2Ke) (hke : k.bomRef.val = "") (p : IKEv2Prf) (hp : p.bomRef.val = "") :
    (X.ikev2Auth.enc t a = (XCodec.struct (.skip ⟨""⟩ X.ikev2AuthFields) IKEv2Auth.toP IKEv2Auth.ofP).enc t a ∧
      X.ikev2Auth.dec (.elem t as ks) {} =
        (XCodec.struct (.skip ⟨""⟩ X.ikev2AuthFields) IKEv2Auth.toP IKEv2Auth.ofP).dec (.elem t as ks) {}) ∧
    (X.ikev2Enc.enc t e = (XCodec.struct (.skip ⟨""⟩ X.ikev2EncFields) IKEv2Enc.toP IKEv2Enc.ofP).enc t e ∧
      X.ikev2Enc.dec (.elem t as ks) {} =
        (XCodec.struct (.skip ⟨""⟩ X.ikev2EncFields) IKEv2Enc.toP IKEv2Enc.ofP).dec (.elem t as ks) {}) ∧
    (X.ikev2Integ.enc t i = (XCodec.struct (.skip ⟨""⟩ X.ikev2IntegFields) IKEv2Integ.toP IKEv2Integ.ofP).enc t i ∧
      X.ikev2Integ.dec (.elem t as ks) {} =
        (XCodec.struct (.skip ⟨""⟩ X.ikev2IntegFields) IKEv2Integ.toP IKEv2Integ.ofP).dec (.elem t as ks) {}) ∧
    (X.ikev2Ke.enc t k = (XCodec.struct (.skip ⟨""⟩ X.ikev2KeFields) IKEv2Ke.toP IKEv2Ke.ofP).enc t k ∧
      X.ikev2Ke.dec (.elem t as ks) {} =
        (XCodec.struct (.skip ⟨""⟩ X.ikev2KeFields) IKEv2Ke.toP IKEv2Ke.ofP).dec (.elem t as ks) {}) ∧
    (X.ikev2Prf.enc t p = (XCodec.struct (.skip ⟨""⟩ X.ikev2PrfFields) IKEv2Prf.toP IKEv2Prf.ofP).enc t p ∧
      X.ikev2Prf.dec (.elem t as ks) {} =
        (XCodec.struct (.skip ⟨""⟩ X.ikev2PrfFields) IKEv2Prf.toP IKEv2Prf.ofP).dec (.elem t as ks) {}) := by
  have hs : Xml.trim "x" ≠ "" := by decide +kernel
  refine ⟨?_, ?_, ?_, ?_, ?_⟩
  · have h := ikev2_form X.ikev2AuthFields IKEv2Auth.toP IKEv2Auth.ofP (fun p => p.1 = "" ∧ p.2.1 = "") (fun _ _ => rfl) rfl
      (fun _ => rfl) t a "x" hs as ks hk
    exact ⟨h.2.1 ha, h.2.2.2⟩
  · have h := ikev2_form X.ikev2EncFields IKEv2Enc.toP IKEv2Enc.ofP (fun p => p.1 = "" ∧ p.2.2.1 = "" ∧ p.2.1.isNone)
      (fun _ _ => rfl) rfl (fun _ => rfl) t e "x" hs as ks hk
    exact ⟨h.2.1 he, h.2.2.2⟩
  · have h := ikev2_form X.ikev2IntegFields IKEv2Integ.toP IKEv2Integ.ofP (fun p => p.1 = "" ∧ p.2.1 = "") (fun _ _ => rfl) rfl
      (fun _ => rfl) t i "x" hs as ks hk
    exact ⟨h.2.1 hi, h.2.2.2⟩
  · have h := ikev2_form X.ikev2KeFields IKEv2Ke.toP IKEv2Ke.ofP (fun p => p.2.1 = "" ∧ p.1.isNone) (fun _ _ => rfl) rfl
      (fun _ => rfl) t k "x" hs as ks hk
    exact ⟨h.2.1 hke, h.2.2.2⟩
  · have h := ikev2_form X.ikev2PrfFields IKEv2Prf.toP IKEv2Prf.ofP (fun p => p.1 = "" ∧ p.2.1 = "") (fun _ _ => rfl) rfl
      (fun _ => rfl) t p "x" hs as ks hk
    exact ⟨h.2.1 hp, h.2.2.2⟩

/-- The five kinds of elements of the evidence of a component. -/
theorem xml_form_evidence_written (t : String) (ev : Evidence) (as : List (String × String)) (ks : List Xml)
    (h : X.evidence.enc t ev = some (some (.elem t as ks))) :
    as = [] ∧ (∀ k ∈ ks, (∃ n ∈ ["identity", "occurrences", "callstack", "licenses", "copyright"], k.isElem n = true) ∨ ∃ s, k = .text s) ∧
    (∀ c, ev.identity = some c → c.identities = .nil →
      XField.encList "identity" true X.evidenceIdentity c.identity.toList = some (elemsCalled "identity" ks)) ∧
    (∀ c, ev.identity = some c → c.identities ≠ .nil →
      XField.encList "identity" true X.evidenceIdentity c.identities.elems = some (elemsCalled "identity" ks)) ∧
    (ev.identity = none → elemsCalled "identity" ks = []) ∧
    (XField.nlist "occurrences" "occurrence" true X.evidenceOccurrence).enc ev.occurrences =
      some (elemsCalled "occurrences" ks) ∧
    (XField.ptr "callstack" X.callstack).enc ev.callstack = some (elemsCalled "callstack" ks) ∧
    (XField.slice "licenses" X.licenses).enc ev.licenses = some (elemsCalled "licenses" ks) ∧
    (XField.nlist "copyright" "text" true X.copyright).enc ev.copyright = some (elemsCalled "copyright" ks) := by
  simp only [X.evidence] at h
  split at h
  · simp at h
  · have hN : XFields.Named X.evidenceFields := by
      have : XNames X.evidenceFields := by unfold X.evidenceFields; infer_instance
      exact this.named
    have he : XFields.elemNames X.evidenceFields |>.Nodup :=
      show (["identity", "occurrences", "callstack", "licenses", "copyright"] : List String).Nodup by decide +kernel
    obtain ⟨ks', hks, e⟩ := Option.map_eq_some_iff.1 h
    simp only [Option.some.injEq, Xml.elem.injEq, true_and] at e
    obtain ⟨rfl, rfl⟩ := e
    have w1 : XField.encList "identity" true X.evidenceIdentity (X.evidenceIdentities ev).elems =
        some (elemsCalled "identity" ks') := XFields.HasElem.written (F := X.evidenceFields) .here hN he _ _ hks
    have w2 := XFields.HasElem.written (F := X.evidenceFields) (.elem .here) hN he _ _ hks
    have w3 := XFields.HasElem.written (F := X.evidenceFields) (.elem (.elem .here)) hN he _ _ hks
    have w4 := XFields.HasElem.written (F := X.evidenceFields) (.elem (.elem (.elem .here))) hN he _ _ hks
    have w5 := XFields.HasElem.written (F := X.evidenceFields) (.elem (.elem (.elem (.elem .here)))) hN he _ _ hks
    refine ⟨rfl, ?_, ?_, ?_, ?_, w2, w3, w4, w5⟩
    · exact hN.kids _ _ hks
    · intro c hc hi
      rw [← w1]
      simp only [X.evidenceIdentities, hc, hi, PSlice.isNil, not_true, if_false]
      cases c.identity <;> rfl
    · intro c hc hi
      have hn : c.identities.isNil = false := by cases e : c.identities <;> first | rfl | exact absurd e hi
      rw [← w1]
      simp [X.evidenceIdentities, hc, hn]
    · intro hc
      have : some [] = some (elemsCalled "identity" ks') := by
        rw [← w1]; simp only [X.evidenceIdentities, hc]; rfl
      simpa using this.symm

/-- Reading them; several identities are collected. -/
theorem xml_form_evidence_read (t : String) (old : Evidence) (a₁ a₂ a₃ a₄ a₅ a₆ a₇ : List (String × String))
    (k₁ k₂ k₃ k₄ k₅ : List Xml) (i i' : EvidenceIdentity) (o : EvidenceOccurrence) (c : Callstack) (ls : List LicenseChoice) (s : String)
    (h₁ : X.evidenceIdentity.dec (.elem "identity" a₁ k₁) {} = some i)
    (h₂ : X.evidenceIdentity.dec (.elem "identity" a₂ k₂) {} = some i')
    (h₃ : X.evidenceOccurrence.dec (.elem "occurrence" a₃ k₃) {} = some o)
    (h₄ : X.callstack.dec (.elem "callstack" a₄ k₄) {} = some c) (hc : c.frames ≠ .nil)
    (h₅ : X.licenses.dec (.elem "licenses" a₅ k₅) [] = some ls) (hl : ls ≠ []) :
    X.evidence.dec (.elem t [] [.elem "identity" a₁ k₁, .elem "identity" a₂ k₂,
        .elem "occurrences" [] [.elem "occurrence" a₃ k₃], .elem "callstack" a₄ k₄, .elem "licenses" a₅ k₅,
        .elem "copyright" a₆ [.elem "text" a₇ (textKids s)]]) old =
      some { identity := some { identities := .list [i, i'] }, occurrences := .list [o], callstack := some c,
             licenses := .list ls, copyright := .list [{ text := s }] } := by
  have hn : c.frames.isNil = false := by cases e : c.frames <;> first | rfl | exact absurd e hc
  have z₁ : X.evidenceIdentity.zero = {} := rfl
  have z₄ : X.callstack.zero = {} := rfl
  have z₅ : X.licenses.zero = [] := rfl
  have r₃ : X.evidenceRaw.dec (.elem "occurrences" [] [.elem "occurrence" a₃ k₃]) X.evidenceRaw.zero =
      some (.list [o], .nil, ()) := by
    have : X.evidenceRaw.setKid (.elem "occurrence" a₃ k₃) (.nil, .nil, ()) = some (.list [o], .nil, ()) := by
      show Option.map _ (Option.map _ (X.evidenceOccurrence.dec (.elem "occurrence" a₃ k₃) {})) = _
      rw [h₃]; rfl
    have z : X.evidenceRaw.zero = (.nil, .nil, ()) := rfl
    simp only [XFields.dec, Xml.attrs, Xml.kids, XFields.decAttrs, XField.decAll, z, this]
    rfl
  have r₇ : X.evidenceRaw.dec (.elem "copyright" a₆ [.elem "text" a₇ (textKids s)]) X.evidenceRaw.zero =
      some (.nil, .list [{ text := s }], ()) := by
    have : X.evidenceRaw.setKid (.elem "text" a₇ (textKids s)) (.nil, .nil, ()) = some (.nil, .list [{ text := s }], ()) := by
      show some (PSlice.nil, PSlice.list [Copyright.mk (textOf (textKids s))], ()) = _
      rw [textOf_textKids]
    have z : X.evidenceRaw.zero = (.nil, .nil, ()) := rfl
    have za : X.evidenceRaw.decAttrs a₆ (.nil, .nil, ()) = some (.nil, .nil, ()) := by
      induction a₆ with
      | nil => rfl
      | cons kv as ih => exact ih
    simp only [XFields.dec, Xml.attrs, Xml.kids, XField.decAll, z, za, this]
    rfl
  simp [X.evidence, Xml.kids, XField.decAll, X.evidenceStep, h₁, h₂, h₄, h₅, z₁, z₄, z₅, r₃, r₇, hl, PSlice.isNil]

/-- The tools of a BOM: elements `tool`, or the elements `components` and `services`. -/
theorem xml_form_tools_written (t : String) (ts : PSlice Tool) (ht : ts ≠ .nil) (cs : PSlice Component) (ss : PSlice Service)
    (hc : cs ≠ .nil ∨ ss ≠ .nil) :
    X.toolsChoice.enc t { tools := ts } = (XField.encList "tool" true X.tool ts.elems).map (fun ks => some (.elem t [] ks)) ∧
    X.toolsChoice.enc t { components := cs, services := ss } =
      ((XField.nlist "components" "component" true X.component).enc cs).bind (fun ks =>
        ((XField.nlist "services" "service" true X.service).enc ss).map fun ls => some (.elem t [] (ks ++ ls))) := by
  have h2 : ¬ cs.isNil = true ∨ ¬ ss.isNil = true := by
    rcases hc with h | h
    · exact .inl (by cases cs <;> first | exact absurd rfl h | simp [PSlice.isNil])
    · exact .inr (by cases ss <;> first | exact absurd rfl h | simp [PSlice.isNil])
  constructor
  · simp only [X.toolsChoice, PSlice.isNil, not_true, or_self, and_false, if_false, Bool.false_eq_true, not_false_eq_true,
      if_true]
    simp only [XCodec.struct, X.toolsChoiceFields, XFields.encKids, XFields.encAttrs, XField.list, XField.nlist, id]
    cases XField.encList "tool" true X.tool ts.elems <;> simp
  · have h3 : (PSlice.nil : PSlice Tool).isNil = true := rfl
    simp only [X.toolsChoice, h3, not_true, false_and, if_false, if_pos h2]
    simp only [XCodec.struct, X.toolsChoiceFields, XFields.encKids, XFields.encAttrs, id]
    have h4 : (XField.list "tool" true X.tool).enc .nil = some [] := rfl
    rw [h4]
    cases (XField.nlist "components" "component" true X.component).enc cs with
    | none => rfl
    | some ks =>
      cases (XField.nlist "services" "service" true X.service).enc ss with
      | none => rfl
      | some ls => simp

/-- Reading them. -/
theorem xml_form_tools_read (t : String) (old : ToolsChoice) (a₁ a₂ a₃ a₄ : List (String × String)) (k₁ k₂ k₃ k₄ : List Xml)
    (u u' : Tool) (c : Component) (s : Service)
    (h₁ : X.tool.dec (.elem "tool" a₁ k₁) {} = some u) (h₂ : X.tool.dec (.elem "tool" a₂ k₂) {} = some u')
    (h₃ : X.component.dec (.elem "component" a₃ k₃) {} = some c) (h₄ : X.service.dec (.elem "service" a₄ k₄) {} = some s) :
    X.toolsChoice.dec (.elem t [] [.elem "tool" a₁ k₁, .elem "tool" a₂ k₂]) old = some { tools := .list [u, u'] } ∧
    X.toolsChoice.dec (.elem t [] [.elem "components" [] [.elem "component" a₃ k₃],
        .elem "services" [] [.elem "service" a₄ k₄]]) old =
      some { components := .list [c], services := .list [s] } := by
  have z₁ : X.tool.zero = {} := rfl
  have r₃ : X.toolsChoiceRaw.dec (.elem "components" [] [.elem "component" a₃ k₃]) X.toolsChoiceRaw.zero =
      some (.list [c], .nil, ()) := by
    have : X.toolsChoiceRaw.setKid (.elem "component" a₃ k₃) (.nil, .nil, ()) = some (.list [c], .nil, ()) := by
      show Option.map _ (Option.map _ (X.component.dec (.elem "component" a₃ k₃) {})) = _
      rw [h₃]; rfl
    have z : X.toolsChoiceRaw.zero = (.nil, .nil, ()) := rfl
    simp only [XFields.dec, Xml.attrs, Xml.kids, XFields.decAttrs, XField.decAll, z, this]
    rfl
  have r₄ : X.toolsChoiceRaw.dec (.elem "services" [] [.elem "service" a₄ k₄]) X.toolsChoiceRaw.zero =
      some (.nil, .list [s], ()) := by
    have : X.toolsChoiceRaw.setKid (.elem "service" a₄ k₄) (.nil, .nil, ()) = some (.nil, .list [s], ()) := by
      show Option.map _ (Option.map _ (Option.map _ (X.service.dec (.elem "service" a₄ k₄) {}))) = _
      rw [h₄]; rfl
    have z : X.toolsChoiceRaw.zero = (.nil, .nil, ()) := rfl
    simp only [XFields.dec, Xml.attrs, Xml.kids, XFields.decAttrs, XField.decAll, z, this]
    rfl
  constructor
  · simp [X.toolsChoice, Xml.kids, XField.decAll, X.toolsChoiceStep, h₁, h₂, z₁, XField.ofList]
  · simp [X.toolsChoice, Xml.kids, XField.decAll, X.toolsChoiceStep, r₃, r₄, PSlice.isNil, PSlice.elems, XField.ofList]

/-- How the data of a service are written: always as an element `dataflow`. -/
theorem xml_form_dataClassification_written (t : String) (d : DataClassification) :
    X.dataClassification.enc t d = ((XField.ptr "governance" X.dataGovernance).enc d.governance).map fun gs =>
      some (.elem "dataflow"
        ((if d.name = "" then [] else [("name", sanitize d.name)]) ++
          (if d.description = "" then [] else [("description", sanitize d.description)]))
        ((if d.classification = "" ∧ d.flow = "" then [] else
            [.elem "classification" (if d.flow = "" then [] else [("flow", sanitize d.flow)])
              (textKids (sanitize d.classification))]) ++ gs ++
          (if d.source.elems = [] then [] else
            [.elem "source" [] (d.source.elems.map fun u => .elem "url" [] (textKids (sanitize u)))]) ++
          (if d.destination.elems = [] then [] else
            [.elem "destination" [] (d.destination.elems.map fun u => .elem "url" [] (textKids (sanitize u)))]))) := by
  simp only [X.dataClassification, X.attrUnlessEmpty, X.urlsElem]
  cases (XField.ptr "governance" X.dataGovernance).enc d.governance with
  | none => rfl
  | some gs =>
    simp only [Option.map_some, Option.some.injEq, Xml.elem.injEq, true_and, ite_not]
    congr 1
    · congr 1
      · congr 1
        by_cases h1 : d.classification = "" <;> by_cases h2 : d.flow = "" <;> simp [h1, h2]
      · cases d.source.elems <;> simp
    · cases d.destination.elems <;> simp

/-- And read. -/
theorem xml_form_dataClassification_read (n e f s u v w : String) (as : List (String × String)) (ks : List Xml)
    (g : DataGovernance) (h : X.dataGovernance.dec (.elem "governance" as ks) {} = some g) :
    X.dataClassification.dec (.elem "dataflow" [("name", n), ("description", e)]
        [.elem "classification" [("flow", f)] (textKids s), .elem "governance" as ks,
         .elem "source" [] [.elem "url" [] (textKids u), .elem "url" [] (textKids v)],
         .elem "destination" [] [.elem "url" [] (textKids w)]]) {} =
      some { name := n, description := e, flow := f, classification := s, governance := some g,
             source := .list [u, v], destination := .list [w] } := by
  have z : X.dataGovernance.zero = {} := rfl
  simp [X.dataClassification, Xml.name, Xml.kids, Xml.attrs, X.spliced, X.spliceOne, XField.decAll, X.dataClassificationStep,
    X.lastAttr, X.urls, textOf_textKids, h, z]

/-- Definitions: the elements `standards` and `patents`; in the latter, each patent or patent family under its name. -/
theorem xml_form_definitions_written (t : String) (s : StandardDefinition) (p : Patent) (q : PatentFamily) :
    X.definitions.enc t { standards := .list [s], patents := .list [{ patent := some p }, { patentFamily := some q }] } =
      (X.standardDefinition.enc "standard" s).bind (fun o => (X.patent.enc "patent" p).bind fun o' =>
        (X.patentFamily.enc "patentFamily" q).map fun o'' =>
          some (.elem t [] [.elem "standards" [] o.toList, .elem "patents" [] (o'.toList ++ o''.toList)])) := by
  simp only [X.definitions, X.enclosed, PSlice.elems, X.encEach, X.patentChoiceEnc]
  cases X.standardDefinition.enc "standard" s with
  | none => rfl
  | some o =>
    cases X.patent.enc "patent" p with
    | none => rfl
    | some o' =>
      cases X.patentFamily.enc "patentFamily" q with
      | none => rfl
      | some o'' => simp

/-- Reading them. -/
theorem xml_form_definitions_read (t : String) (a₁ a₂ a₃ : List (String × String)) (k₁ k₂ k₃ : List Xml)
    (s : StandardDefinition) (p : Patent) (q : PatentFamily)
    (h₁ : X.standardDefinition.dec (.elem "standard" a₁ k₁) {} = some s)
    (h₂ : X.patent.dec (.elem "patent" a₂ k₂) {} = some p)
    (h₃ : X.patentFamily.dec (.elem "patentFamily" a₃ k₃) {} = some q) :
    X.definitions.dec (.elem t [] [.elem "standards" [] [.elem "standard" a₁ k₁],
        .elem "patents" [] [.elem "patent" a₂ k₂, .elem "patentFamily" a₃ k₃]]) {} =
      some { standards := .list [s], patents := .list [{ patent := some p }, { patentFamily := some q }] } := by
  have z₁ : X.standardDefinition.zero = {} := rfl
  have z₂ : X.patent.zero = {} := rfl
  have z₃ : X.patentFamily.zero = {} := rfl
  simp [X.definitions, Xml.kids, XField.decAll, X.definitionsStep, X.decEach, X.standardDec, X.patentChoiceDec, h₁, h₂, h₃,
    z₁, z₂, z₃]

/-- An expression with a detail, as it is written. -/
example : X.licenses.enc "licenses" [{ license := some { id := "MIT" } },
      { expression := "MIT OR X", expressionDetails := .list [{ licenseIdentifier := "X", url := "u" }] }] =
    some (some (.elem "licenses" [] [.elem "license" [] [.elem "id" [] [.text "MIT"]],
      .elem "expression-detailed" [("expression", "MIT OR X")]
        [.elem "details" [("license-identifier", "X")] [.elem "url" [] [.text "u"]]]])) := rfl

/-- Evidence as it is written. -/
example : X.evidence.enc "evidence"
      { identity := some { identity := some { field := "purl" } }, copyright := .list [{ text := "c" }] } =
    some (some (.elem "evidence" [] [.elem "identity" [] [.elem "field" [] [.text "purl"]],
      .elem "copyright" [] [.elem "text" [] [.text "c"]]])) := rfl

end Verif.Props
