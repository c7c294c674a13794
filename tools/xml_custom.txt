CUSTOM['CertificateState'] = '''/-- cyclonedx_xml.go:420-423 `predefinedCertificateStateXML` -/
def X.predefinedCertificateState : XCodec PredefinedCertificateState :=
  XCodec.struct (.elem (.plain "state" false X.string) <| .elem (.plain "reason" true X.string) .nil)
    PredefinedCertificateState.toP PredefinedCertificateState.ofP

/-- cyclonedx_xml.go:425-429 `customCertificateStateXML` -/
def X.customCertificateState : XCodec CustomCertificateState :=
  XCodec.struct
    (.elem (.plain "name" false X.string) <| .elem (.plain "description" true X.string) <|
      .elem (.plain "reason" true X.string) .nil)
    CustomCertificateState.toP CustomCertificateState.ofP

/-- cyclonedx_xml.go:452-457, the variable `raw` -/
def X.certificateStateRaw : XFields (String × String × String × String × Unit) :=
  .elem (.plain "state" false X.string) <| .elem (.plain "name" false X.string) <|
    .elem (.plain "description" false X.string) <| .elem (.plain "reason" false X.string) .nil

/-- cyclonedx_xml.go:431-474 -/
def X.certificateState : XCodec CertificateState where
  enc n cs :=
    match cs.predefined, cs.custom with
    | some _, some _ => none
    | some p, none => X.predefinedCertificateState.enc n p
    | none, some c => X.customCertificateState.enc n c
    | none, none => some none
  dec x cs :=
    match X.certificateStateRaw.dec x X.certificateStateRaw.zero with
    | none => none
    | some (state, name, description, reason, ()) =>
      if state ≠ "" then some { cs with predefined := some { state := state, reason := reason } }
      else some { cs with custom := some { name := name, description := description, reason := reason } }
  zero := {}
  empty _ := false
  writes cs := cs.predefined.isSome || cs.custom.isSome
  norm cs :=
    match cs.predefined, cs.custom with
    | some p, _ =>
      if p.state ≠ "" then { predefined := some { state := sanitize p.state, reason := sanitize p.reason } }
      else { custom := some { name := "", description := "", reason := sanitize p.reason } }
    | none, some c =>
      { custom := some { name := sanitize c.name, description := sanitize c.description, reason := sanitize c.reason } }
    | none, none => {}
'''
CUSTOM['CertificateExtension'] = '''/-- cyclonedx_xml.go:476-479 `commonCertificateExtensionXML` -/
def X.commonCertificateExtension : XCodec CommonCertificateExtension :=
  XCodec.struct (.elem (.plain "commonExtensionName" false X.string) <|
      .elem (.plain "commonExtensionValue" true X.string) .nil)
    CommonCertificateExtension.toP CommonCertificateExtension.ofP

/-- cyclonedx_xml.go:481-484 `customCertificateExtensionXML` -/
def X.customCertificateExtension : XCodec CustomCertificateExtension :=
  XCodec.struct (.elem (.plain "customExtensionName" false X.string) <|
      .elem (.plain "customExtensionValue" true X.string) .nil)
    CustomCertificateExtension.toP CustomCertificateExtension.ofP

/-- cyclonedx_xml.go:506-511, the variable `raw` -/
def X.certificateExtensionRaw : XFields (String × String × String × String × Unit) :=
  .elem (.plain "commonExtensionName" false X.string) <| .elem (.plain "commonExtensionValue" false X.string) <|
    .elem (.plain "customExtensionName" false X.string) <| .elem (.plain "customExtensionValue" false X.string) .nil

/-- cyclonedx_xml.go:486-527 -/
def X.certificateExtension : XCodec CertificateExtension where
  enc n ce :=
    match ce.common, ce.custom with
    | some _, some _ => none
    | some p, none => X.commonCertificateExtension.enc n p
    | none, some c => X.customCertificateExtension.enc n c
    | none, none => some none
  dec x ce :=
    match X.certificateExtensionRaw.dec x X.certificateExtensionRaw.zero with
    | none => none
    | some (name, value, name', value', ()) =>
      if name ≠ "" then some { ce with common := some { name := name, value := value } }
      else some { ce with custom := some { name := name', value := value' } }
  zero := {}
  empty _ := false
  writes ce := ce.common.isSome || ce.custom.isSome
  norm ce :=
    match ce.common, ce.custom with
    | some p, _ =>
      if p.name ≠ "" then { common := some { name := sanitize p.name, value := sanitize p.value } }
      else { custom := some { name := "", value := "" } }
    | none, some c => { custom := some { name := sanitize c.name, value := sanitize c.value } }
    | none, none => {}
'''
CUSTOM['Copyright'] = '''/-- cyclonedx_xml.go:47-58 -/
def X.copyright : XCodec Copyright where
  enc n c := X.string.enc n c.text
  dec x c := (X.string.dec x "").map fun t => { c with text := t }
  zero := {}
  empty _ := false
  norm c := { text := sanitize c.text }
'''
CUSTOM['LicenseChoice'] = '''/-- cyclonedx_xml.go:215-219 `licenseExpressionDetailXML`, which leaves out the `bom-ref` of the detail -/
def X.licenseExpressionDetailFields : XFields (String × Option AttachedText × String × Unit) :=
  .attr "license-identifier" false XText.string <| .elem (.ptr "text" X.attachedText) <|
    .elem (.plain "url" true X.string) .nil

/-- cyclonedx_xml.go:251-257 and 320-327 -/
def X.licenseExpressionDetail : XCodec LicenseExpressionDetail :=
  XCodec.struct X.licenseExpressionDetailFields (fun d => (d.licenseIdentifier, d.text, d.url, ()))
    (fun p => { licenseIdentifier := p.1, text := p.2.1, url := p.2.2.1 })

/-- cyclonedx_xml.go:201-205 `licenseExpressionXML` -/
def X.licenseExpressionFields : XFields (String × String × String × Unit) :=
  .chardata <| .attr "acknowledgement" true XText.string <| .attr "bom-ref" true XText.string .nil

/-- cyclonedx_xml.go:208-213 `licenseExpressionDetailedXML` -/
def X.licenseExpressionDetailedFields : XFields (String × String × String × PSlice LicenseExpressionDetail × Unit) :=
  .attr "expression" false XText.string <| .attr "acknowledgement" true XText.string <|
    .attr "bom-ref" true XText.string <| .elem (.list "details" false X.licenseExpressionDetail) .nil

/-- cyclonedx_xml.go:297-305: the choice an expression is read as. -/
def X.expressionChoice (expression ack ref : String) (details : PSlice LicenseExpressionDetail) : LicenseChoice :=
  { expression := expression, bomRef := ref, acknowledgement := if ack ≠ "" then some ack else none,
    expressionDetails := details }

/-- cyclonedx_xml.go:230-272, the body of the loop. -/
def X.licenseChoiceEnc (choice : LicenseChoice) : Option (List Xml) :=
  match choice.license with
  | some l => if choice.expression ≠ "" then none else (X.license.enc "license" l).map (·.toList)
  | none =>
    if choice.expression ≠ "" then
      if choice.expressionDetails.isNil then
        ((XCodec.struct X.licenseExpressionFields id id).enc "expression"
          (choice.expression, choice.acknowledgement.getD "", choice.bomRef, ())).map (·.toList)
      else
        ((XCodec.struct X.licenseExpressionDetailedFields id id).enc "expression-detailed"
          (choice.expression, choice.acknowledgement.getD "", choice.bomRef, choice.expressionDetails, ())).map (·.toList)
    else some []

/-- cyclonedx_xml.go:289-340, the body of the loop. -/
def X.licenseChoiceDec : Xml → Option (List LicenseChoice)
  | .text _ => some []
  | .elem name as ks =>
    if name = "expression" then
      (X.licenseExpressionFields.dec (.elem name as ks) X.licenseExpressionFields.zero).map fun p =>
        [X.expressionChoice p.1 p.2.1 p.2.2.1 .nil]
    else if name = "expression-detailed" then
      (X.licenseExpressionDetailedFields.dec (.elem name as ks) X.licenseExpressionDetailedFields.zero).map fun p =>
        [X.expressionChoice p.1 p.2.1 p.2.2.1 p.2.2.2.1]
    else if name = "license" then
      (X.license.dec (.elem name as ks) X.license.zero).map fun l => [{ license := some l }]
    else none

/-- What a choice is read back as. -/
def X.licenseChoiceNorm (choice : LicenseChoice) : List LicenseChoice :=
  match choice.license with
  | some l => [{ license := some (X.license.norm l) }]
  | none =>
    if choice.expression ≠ "" then
      [X.expressionChoice (sanitize choice.expression) (sanitize (choice.acknowledgement.getD ""))
        (sanitize choice.bomRef) (XField.ofList (XField.normList false X.licenseExpressionDetail choice.expressionDetails.elems))]
    else []

/-- cyclonedx_xml.go:221-342 -/
def X.licenses : XCodec (List LicenseChoice) where
  enc n ls :=
    match ls with
    | [] => some none
    | ls => (X.encEach X.licenseChoiceEnc ls).map fun ks => some (.elem n [] ks)
  dec x _ := X.decEach X.licenseChoiceDec x.kids
  zero := []
  empty ls := ls.isEmpty
  writes ls := !ls.isEmpty
  norm ls := ls.flatMap X.licenseChoiceNorm
  good ls := ∀ l ∈ ls, ∀ m ∈ l.license, X.license.good m
'''
CUSTOM['Evidence'] = '''/-- cyclonedx_xml.go:835-841 `EvidenceMarshalXML` -/
def X.evidenceFields : XFields (PSlice EvidenceIdentity × PSlice EvidenceOccurrence × Option Callstack ×
    PSlice LicenseChoice × PSlice Copyright × Unit) :=
  .elem (.list "identity" true X.evidenceIdentity) <|
  .elem (.nlist "occurrences" "occurrence" true X.evidenceOccurrence) <|
  .elem (.ptr "callstack" X.callstack) <|
  .elem (.slice "licenses" X.licenses) <|
  .elem (.nlist "copyright" "text" true X.copyright) <|
  .nil

/-- cyclonedx_xml.go:846-849 `EvidenceUnmarshalXML` -/
def X.evidenceRaw : XFields (PSlice EvidenceOccurrence × PSlice Copyright × Unit) :=
  .elem (.list "occurrence" true X.evidenceOccurrence) <|
  .elem (.list "text" true X.copyright) <|
  .nil

/-- cyclonedx_xml.go:854-861: what is written for the identity. -/
def X.evidenceIdentities (ev : Evidence) : PSlice EvidenceIdentity :=
  match ev.identity with
  | none => .nil
  | some c =>
    if ¬ c.identities.isNil then c.identities
    else match c.identity with
      | some i => .list [i]
      | none => .nil

/-- cyclonedx_xml.go:899-944, the body of the loop; the identities are collected separately. -/
def X.evidenceStep (x : Xml) (st : List EvidenceIdentity × Evidence) : Option (List EvidenceIdentity × Evidence) :=
  match x with
  | .text _ => some st
  | .elem name as ks =>
    if name = "identity" then
      (X.evidenceIdentity.dec (.elem name as ks) X.evidenceIdentity.zero).map fun i => (st.1 ++ [i], st.2)
    else if name = "occurrences" then
      (X.evidenceRaw.dec (.elem name as ks) X.evidenceRaw.zero).map fun p =>
        if ¬ p.1.isNil then (st.1, { st.2 with occurrences := p.1 }) else st
    else if name = "callstack" then
      (X.callstack.dec (.elem name as ks) X.callstack.zero).map fun c =>
        if ¬ c.frames.isNil then (st.1, { st.2 with callstack := some c }) else st
    else if name = "licenses" then
      (X.licenses.dec (.elem name as ks) X.licenses.zero).map fun ls =>
        if ls ≠ [] then (st.1, { st.2 with licenses := .list ls }) else st
    else if name = "copyright" then
      (X.evidenceRaw.dec (.elem name as ks) X.evidenceRaw.zero).map fun p =>
        if ¬ p.2.1.isNil then (st.1, { st.2 with copyright := p.2.1 }) else st
    else none

/-- A call stack without frames is not read. -/
def X.callstackNorm : Option Callstack → Option Callstack
  | some c => if ¬ (X.callstack.norm c).frames.isNil then some (X.callstack.norm c) else none
  | none => none

/-- cyclonedx_xml.go:851-952 -/
def X.evidence : XCodec Evidence where
  enc n ev :=
    if ev.identity.isNone ∧ ev.occurrences.isNil ∧ ev.callstack.isNone ∧ ev.licenses.isNil ∧ ev.copyright.isNil then
      some none
    else
      (XCodec.struct X.evidenceFields id id).enc n
        (X.evidenceIdentities ev, ev.occurrences, ev.callstack, ev.licenses, ev.copyright, ())
  dec x _ :=
    (XField.decAll X.evidenceStep x.kids ([], {})).map fun st =>
      if st.1 ≠ [] then { st.2 with identity := some { identities := .list st.1 } } else st.2
  zero := {}
  empty _ := false
  writes ev :=
    !(ev.identity.isNone && ev.occurrences.isNil && ev.callstack.isNone && ev.licenses.isNil && ev.copyright.isNil)
  norm ev :=
    { identity :=
        match XField.normList true X.evidenceIdentity (X.evidenceIdentities ev).elems with
        | [] => none
        | is => some { identities := .list is }
      occurrences := XField.ofList (XField.normList true X.evidenceOccurrence ev.occurrences.elems)
      callstack := X.callstackNorm ev.callstack
      licenses := XField.ofList (X.licenses.norm ev.licenses.elems)
      copyright := XField.ofList (XField.normList true X.copyright ev.copyright.elems) }
  good ev :=
    X.evidenceFields.good (X.evidenceIdentities ev, ev.occurrences, ev.callstack, ev.licenses, ev.copyright, ())
'''
CUSTOM['MLDatasetChoice'] = '''/-- cyclonedx_xml.go:347-349 `mlDatasetChoiceRefXML` -/
def X.mlDatasetChoiceRef : XCodec String :=
  XCodec.struct (.elem (.plain "ref" false X.string) .nil) (fun s => (s, ())) (fun p => p.1)

/-- cyclonedx_xml.go:351-354 `mlDatasetChoiceXML`: the fields of the embedded struct are its own -/
def X.mlDatasetChoiceFields : XFields (String × ComponentData.P) :=
  .elem (.plain "ref" false X.string) X.componentDataFields

/-- cyclonedx_xml.go:356-383 -/
def X.mlDatasetChoice : XCodec MLDatasetChoice where
  enc n dc :=
    if dc.ref ≠ "" then X.mlDatasetChoiceRef.enc n dc.ref
    else match dc.componentData with
      | some d => X.componentData.enc n d
      | none => some none
  dec x dc :=
    match X.mlDatasetChoiceFields.dec x X.mlDatasetChoiceFields.zero with
    | none => none
    | some p =>
      if p.1 ≠ "" then some { dc with ref := p.1 }
      else if ¬ (ComponentData.ofP p.2).isZero then some { dc with componentData := some (ComponentData.ofP p.2) }
      else some dc
  zero := {}
  empty _ := false
  writes dc := dc.ref ≠ "" || dc.componentData.isSome
  norm dc :=
    if dc.ref ≠ "" then { ref := sanitize dc.ref }
    else match dc.componentData with
      | some d => if ¬ (X.componentData.norm d).isZero then { componentData := some (X.componentData.norm d) } else {}
      | none => {}
  good dc := dc.ref = "" → ∀ d ∈ dc.componentData, X.componentData.good d
'''
CUSTOM['AsserterChoice'] = '''/-- cyclonedx_xml.go:552-556, the variable `raw` -/
def X.asserterChoiceRaw : XFields (Option OrganizationalEntity × Option OrganizationalContact × Option BOMReference × Unit) :=
  .elem (.ptr "organization" X.organizationalEntity) <| .elem (.ptr "contact" X.organizationalContact) <|
    .elem (.ptr "ref" X.bomReference) .nil

/-- cyclonedx_xml.go:529-564 -/
def X.asserterChoice : XCodec AsserterChoice where
  enc n ac :=
    match ac.organization, ac.individual, ac.bomRef with
    | some _, some _, _ => none
    | some o, none, _ =>
      (XCodec.struct (.elem (.ptr "organization" X.organizationalEntity) .nil) (fun o => (o, ())) (fun p => p.1)).enc
        n (some o)
    | none, some i, _ =>
      (XCodec.struct (.elem (.ptr "contact" X.organizationalContact) .nil) (fun i => (i, ())) (fun p => p.1)).enc
        n (some i)
    | none, none, some r =>
      (XCodec.struct (.elem (.ptr "ref" X.bomReference) .nil) (fun r => (r, ())) (fun p => p.1)).enc n (some r)
    | none, none, none => some none
  dec x _ :=
    match X.asserterChoiceRaw.dec x X.asserterChoiceRaw.zero with
    | none => none
    | some p => some { organization := p.1, individual := p.2.1, bomRef := p.2.2.1 }
  zero := {}
  empty _ := false
  writes ac := ac.organization.isSome || ac.individual.isSome || ac.bomRef.isSome
  norm ac :=
    match ac.organization, ac.individual, ac.bomRef with
    | some o, _, _ => { organization := some (X.organizationalEntity.norm o) }
    | none, some i, _ => { individual := some (X.organizationalContact.norm i) }
    | none, none, some r => { bomRef := some (X.bomReference.norm r) }
    | none, none, none => {}
  good ac :=
    (∀ o ∈ ac.organization, X.organizationalEntity.good o) ∧ (∀ i ∈ ac.individual, X.organizationalContact.good i)
'''
CUSTOM['DataClassification'] = '''mutual
/-- The tokens of a content as a loop sees them that acts on the elements called in `known`, does not skip
other elements but goes on inside them, and returns at the end of an element called `stop`: `none` if that
happens inside the content, which then is not read to its end. -/
def X.spliced (known : List String) (stop : String) : List Xml → Option (List Xml)
  | [] => some []
  | x :: xs =>
    match X.spliceOne known stop x, X.spliced known stop xs with
    | some ys, some zs => some (ys ++ zs)
    | _, _ => none
/-- `X.spliced` for one element. -/
def X.spliceOne (known : List String) (stop : String) : Xml → Option (List Xml)
  | .text _ => some []
  | .elem name as ks =>
    if name ∈ known then some [.elem name as ks]
    else if name = stop then none
    else X.spliced known stop ks
end

/-- cyclonedx_xml.go:1068-1087: the URLs of a source or destination.  Simplified: an element of the same name
nested in it, and not in a URL, ends the loop early in Go; here it is an error. -/
def X.urls (name : String) (ks : List Xml) : Option (List String) :=
  (X.spliced ["url"] name ks).map fun ys => ys.map fun y => textOf y.kids

/-- cyclonedx_xml.go:1037-1044 and 1056-1060: the last attribute with this name, if there is one. -/
def X.lastAttr (name : String) (as : List (String × String)) (old : String) : String :=
  as.foldl (fun v kv => if kv.1 = name then kv.2 else v) old

/-- cyclonedx_xml.go:1052-1117, the body of the loop. -/
def X.dataClassificationStep (x : Xml) (dc : DataClassification) : Option DataClassification :=
  match x with
  | .text _ => some dc
  | .elem name as ks =>
    if name = "classification" then
      some { dc with flow := X.lastAttr "flow" as dc.flow, classification := textOf ks }
    else if name = "governance" then
      (X.dataGovernance.dec (.elem name as ks) X.dataGovernance.zero).map fun g => { dc with governance := some g }
    else if name = "source" then
      (X.urls "source" ks).map fun us => if us ≠ [] then { dc with source := .list us } else dc
    else if name = "destination" then
      (X.urls "destination" ks).map fun us => if us ≠ [] then { dc with destination := .list us } else dc
    else some dc

/-- An attribute that is left out if it is empty. -/
def X.attrUnlessEmpty (name value : String) : List (String × String) :=
  if value ≠ "" then [(name, sanitize value)] else []

/-- cyclonedx_xml.go:990-1008: the list of URLs of a source or destination. -/
def X.urlsElem (name : String) (urls : PSlice String) : List Xml :=
  match urls.elems with
  | [] => []
  | us => [.elem name [] (us.map fun u => .elem "url" [] (textKids (sanitize u)))]

/-- cyclonedx_xml.go:955-1128.  The element is always called `dataflow`, whatever the name of the field; an
element of another name is never read to its end, which is an error. -/
def X.dataClassification : XCodec DataClassification where
  enc _ dc :=
    match (XField.ptr "governance" X.dataGovernance).enc dc.governance with
    | none => none
    | some gs =>
      some (some (.elem "dataflow" (X.attrUnlessEmpty "name" dc.name ++ X.attrUnlessEmpty "description" dc.description)
        ((if dc.classification ≠ "" ∨ dc.flow ≠ "" then
            [.elem "classification" (X.attrUnlessEmpty "flow" dc.flow) (textKids (sanitize dc.classification))]
          else []) ++ gs ++ X.urlsElem "source" dc.source ++ X.urlsElem "destination" dc.destination)))
  dec x dc :=
    if x.name ≠ "dataflow" then none
    else
      match X.spliced ["classification", "governance", "source", "destination"] "dataflow" x.kids with
      | none => none
      | some ys =>
        XField.decAll X.dataClassificationStep ys
          { dc with name := X.lastAttr "name" x.attrs dc.name,
                    description := X.lastAttr "description" x.attrs dc.description }
  zero := {}
  empty _ := false
  norm dc :=
    { flow := sanitize dc.flow, classification := sanitize dc.classification, name := sanitize dc.name,
      description := sanitize dc.description, governance := dc.governance.map X.dataGovernance.norm,
      source := XField.ofList (dc.source.elems.map sanitize),
      destination := XField.ofList (dc.destination.elems.map sanitize) }
  good dc := ∀ g ∈ dc.governance, X.dataGovernance.good g
  rename _ := "dataflow"
'''
CUSTOM['Definitions'] = '''/-- cyclonedx_xml.go:1156-1164, the body of the loop. -/
def X.patentChoiceEnc (choice : PatentChoice) : Option (List Xml) :=
  match choice.patent, choice.patentFamily with
  | some p, _ => (X.patent.enc "patent" p).map (·.toList)
  | none, some f => (X.patentFamily.enc "patentFamily" f).map (·.toList)
  | none, none => some []

/-- cyclonedx_xml.go:1217-1235, the body of the loop.  The loop ends at the end of the first element it does
not know; the end of `patents` then ends `UnmarshalXML` before the end of its element, which is an error. -/
def X.patentChoiceDec : Xml → Option (List PatentChoice)
  | .text _ => some []
  | .elem name as ks =>
    if name = "patent" then
      (X.patent.dec (.elem name as ks) X.patent.zero).map fun p => [{ patent := some p }]
    else if name = "patentFamily" then
      (X.patentFamily.dec (.elem name as ks) X.patentFamily.zero).map fun f => [{ patentFamily := some f }]
    else none

/-- What a choice is read back as. -/
def X.patentChoiceNorm (choice : PatentChoice) : List PatentChoice :=
  match choice.patent, choice.patentFamily with
  | some p, _ => [{ patent := some (X.patent.norm p) }]
  | none, some f => [{ patentFamily := some (X.patentFamily.norm f) }]
  | none, none => []

/-- cyclonedx_xml.go:1188-1203, the body of the loop; an element it does not know is an error as above. -/
def X.standardDec : Xml → Option (List StandardDefinition)
  | .text _ => some []
  | .elem name as ks =>
    if name = "standard" then
      (X.standardDefinition.dec (.elem name as ks) X.standardDefinition.zero).map fun s => [s]
    else none

/-- cyclonedx_xml.go:1183-1250, the body of the loop. -/
def X.definitionsStep (x : Xml) (d : Definitions) : Option Definitions :=
  match x with
  | .text _ => some d
  | .elem name _ ks =>
    if name = "standards" then
      (X.decEach X.standardDec ks).map fun ss => if ss ≠ [] then { d with standards := .list ss } else d
    else if name = "patents" then
      (X.decEach X.patentChoiceDec ks).map fun ps => if ps ≠ [] then { d with patents := .list ps } else d
    else some d

/-- A list with an enclosing element, which is left out only for the nil pointer. -/
def X.enclosed {α : Type} (name : String) (f : α → Option (List Xml)) : PSlice α → Option (List Xml)
  | .nil => some []
  | as => (X.encEach f as.elems).map fun ks => [.elem name [] ks]

/-- cyclonedx_xml.go:1130-1255 -/
def X.definitions : XCodec Definitions where
  enc n d :=
    match X.enclosed "standards" (fun s => (X.standardDefinition.enc "standard" s).map (·.toList)) d.standards,
        X.enclosed "patents" X.patentChoiceEnc d.patents with
    | some ss, some ps => some (some (.elem n [] (ss ++ ps)))
    | _, _ => none
  dec x d := XField.decAll X.definitionsStep x.kids d
  zero := {}
  empty _ := false
  norm d :=
    { standards := XField.ofList (d.standards.elems.map X.standardDefinition.norm),
      patents := XField.ofList (d.patents.elems.flatMap X.patentChoiceNorm) }
  good d :=
    (∀ s ∈ d.standards.elems, X.standardDefinition.good s) ∧
      ∀ c ∈ d.patents.elems, (∀ p ∈ c.patent, X.patent.good p) ∧ (∀ f ∈ c.patentFamily, X.patentFamily.good f)
'''
CUSTOM['Dependency'] = '''/-- cyclonedx_xml.go:62-66 `dependencyXML` -/
def X.dependencyFields : XFields Dependency.P :=
  .attr "ref" false XText.string <| .elem (.list "dependency" true X.dependencyRef) <|
    .elem (.list "provides" true X.dependencyRef) .nil

/-- cyclonedx_xml.go:68-116: empty lists are left out, which writes and reads the same as an empty list. -/
def X.dependency : XCodec Dependency :=
  X.fresh (XCodec.struct X.dependencyFields Dependency.toP Dependency.ofP)
'''
CUSTOM['EnvironmentVariableChoice'] = '''/-- cyclonedx_xml.go:128-144, the body of the loop. -/
def X.environmentVariableEnc (choice : EnvironmentVariableChoice) : Option (List Xml) :=
  match choice.property with
  | some p => if choice.value ≠ "" then none else (X.property.enc "environmentVar" p).map (·.toList)
  | none => if choice.value ≠ "" then (X.string.enc "value" choice.value).map (·.toList) else some []

/-- cyclonedx_xml.go:161-181, the body of the loop. -/
def X.environmentVariableDec : Xml → Option (List EnvironmentVariableChoice)
  | .text _ => some []
  | .elem name as ks =>
    if name = "value" then (X.string.dec (.elem name as ks) "").map fun v => [{ value := v }]
    else if name = "environmentVar" then
      (X.property.dec (.elem name as ks) X.property.zero).map fun p => [{ property := some p }]
    else none

/-- What a choice is read back as. -/
def X.environmentVariableNorm (choice : EnvironmentVariableChoice) : List EnvironmentVariableChoice :=
  match choice.property with
  | some p => [{ property := some (X.property.norm p) }]
  | none => if choice.value ≠ "" then [{ value := sanitize choice.value }] else []

/-- cyclonedx_xml.go:118-186 -/
def X.environmentVariables : XCodec (List EnvironmentVariableChoice) where
  enc n evs :=
    match evs with
    | [] => some none
    | evs => (X.encEach X.environmentVariableEnc evs).map fun ks => some (.elem n [] ks)
  dec x _ := X.decEach X.environmentVariableDec x.kids
  zero := []
  empty evs := evs.isEmpty
  writes evs := !evs.isEmpty
  norm evs := evs.flatMap X.environmentVariableNorm
'''
CUSTOM['ToolsChoice'] = '''/-- cyclonedx_xml.go:729-733 `toolsChoiceMarshalXML` -/
def X.toolsChoiceFields : XFields (PSlice Tool × PSlice Component × PSlice Service × Unit) :=
  .elem (.list "tool" true X.tool) <|
  .elem (.nlist "components" "component" true X.component) <|
  .elem (.nlist "services" "service" true X.service) <|
  .nil

/-- cyclonedx_xml.go:743-746 `toolsChoiceUnmarshalXML` -/
def X.toolsChoiceRaw : XFields (PSlice Component × PSlice Service × Unit) :=
  .elem (.list "component" true X.component) <|
  .elem (.list "service" true X.service) <|
  .nil

/-- cyclonedx_xml.go:782-810, the body of the loop: the tools, components and services so far. -/
def X.toolsChoiceStep (x : Xml) (st : List Tool × List Component × List Service) :
    Option (List Tool × List Component × List Service) :=
  match x with
  | .text _ => some st
  | .elem name as ks =>
    if name = "tool" then
      (X.tool.dec (.elem name as ks) X.tool.zero).map fun t => (st.1 ++ [t], st.2.1, st.2.2)
    else if name = "components" then
      (X.toolsChoiceRaw.dec (.elem name as ks) X.toolsChoiceRaw.zero).map fun p =>
        if ¬ p.1.isNil then (st.1, p.1.elems, st.2.2) else st
    else if name = "services" then
      (X.toolsChoiceRaw.dec (.elem name as ks) X.toolsChoiceRaw.zero).map fun p =>
        if ¬ p.2.1.isNil then (st.1, st.2.1, p.2.1.elems) else st
    else none

/-- cyclonedx_xml.go:748-832 -/
def X.toolsChoice : XCodec ToolsChoice where
  enc n tc :=
    if ¬ tc.tools.isNil ∧ (¬ tc.components.isNil ∨ ¬ tc.services.isNil) then none
    else if ¬ tc.tools.isNil then
      (XCodec.struct X.toolsChoiceFields id id).enc n (tc.tools, .nil, .nil, ())
    else if ¬ tc.components.isNil ∨ ¬ tc.services.isNil then
      (XCodec.struct X.toolsChoiceFields id id).enc n (.nil, tc.components, tc.services, ())
    else some none
  dec x tc :=
    match XField.decAll X.toolsChoiceStep x.kids ([], [], []) with
    | none => none
    | some (ts, cs, ss) =>
      if ts ≠ [] ∧ (cs ≠ [] ∨ ss ≠ []) then none
      else if ts ≠ [] ∨ cs ≠ [] ∨ ss ≠ [] then
        some { tools := XField.ofList ts, components := XField.ofList cs, services := XField.ofList ss }
      else some tc
  zero := {}
  empty _ := false
  writes tc := !(tc.tools.isNil && tc.components.isNil && tc.services.isNil)
  norm tc :=
    { tools := XField.ofList (XField.normList true X.tool tc.tools.elems),
      components := XField.ofList (XField.normList true X.component tc.components.elems),
      services := XField.ofList (XField.normList true X.service tc.services.elems) }
  good tc := X.toolsChoiceFields.good (tc.tools, tc.components, tc.services, ())
'''
