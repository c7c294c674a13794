import Verif.Json.MemberLaws

/-!
# C62: every field has its member

GENERATED by `tools/gen_members.py`; do not edit by hand.

For every type that is written as an object: the names of its members, and which field each of them is.
-/

namespace Verif.Props

set_option maxRecDepth 4000
set_option linter.unusedSectionVars false

variable [FloatIO]

/-- cyclonedx.go:35-38 -/
theorem json_members_advisory :
    Object J.advisory ["title", "url"] ∧
    Member J.advisory "title" false JCodec.string (fun x => x.title)
      (fun (x : Advisory) v => { x with title := v }) ∧
    Member J.advisory "url" true JCodec.string (fun x => x.url)
      (fun (x : Advisory) v => { x with url := v }) := by
  have hd : JFields.NamesDistinct J.advisoryFields :=
    show (List.map Json.foldKey ["title", "url"]).Nodup by decide +kernel
  have ho := struct_object J.advisoryFields Advisory.toP Advisory.ofP (fun s => by cases s; rfl) (fun _ => rfl) ["title", "url"] rfl
  exact ⟨ho,
    (struct_member (F := J.advisoryFields) (toP := Advisory.toP) (ofP := Advisory.ofP) .here hd (fun _ => rfl) (fun _ _ => rfl)),
    (struct_member (F := J.advisoryFields) (toP := Advisory.toP) (ofP := Advisory.ofP) (.there .here) hd (fun _ => rfl) (fun _ _ => rfl))⟩

/-- cyclonedx.go:40-44 -/
theorem json_members_affectedVersions :
    Object J.affectedVersions ["version", "range", "status"] ∧
    Member J.affectedVersions "version" false JCodec.string (fun x => x.version)
      (fun (x : AffectedVersions) v => { x with version := v }) ∧
    Member J.affectedVersions "range" false JCodec.string (fun x => x.range)
      (fun (x : AffectedVersions) v => { x with range := v }) ∧
    Member J.affectedVersions "status" true JCodec.string (fun x => x.status)
      (fun (x : AffectedVersions) v => { x with status := v }) := by
  have hd : JFields.NamesDistinct J.affectedVersionsFields :=
    show (List.map Json.foldKey ["version", "range", "status"]).Nodup by decide +kernel
  have ho := struct_object J.affectedVersionsFields AffectedVersions.toP AffectedVersions.ofP (fun s => by cases s; rfl) (fun _ => rfl) ["version", "range", "status"] rfl
  exact ⟨ho,
    (struct_member (F := J.affectedVersionsFields) (toP := AffectedVersions.toP) (ofP := AffectedVersions.ofP) .here hd (fun _ => rfl) (fun _ _ => rfl)),
    (struct_member (F := J.affectedVersionsFields) (toP := AffectedVersions.toP) (ofP := AffectedVersions.ofP) (.there .here) hd (fun _ => rfl) (fun _ _ => rfl)),
    (struct_member (F := J.affectedVersionsFields) (toP := AffectedVersions.toP) (ofP := AffectedVersions.ofP) (.there (.there .here)) hd (fun _ => rfl) (fun _ _ => rfl))⟩

/-- cyclonedx.go:46-49 -/
theorem json_members_affects :
    Object J.affects ["ref", "versions"] ∧
    Member J.affects "ref" true JCodec.string (fun x => x.ref)
      (fun (x : Affects) v => { x with ref := v }) ∧
    Member J.affects "versions" false (JCodec.pslice J.affectedVersions) (fun x => x.range)
      (fun (x : Affects) v => { x with range := v }) := by
  have hd : JFields.NamesDistinct J.affectsFields :=
    show (List.map Json.foldKey ["ref", "versions"]).Nodup by decide +kernel
  have ho := struct_object J.affectsFields Affects.toP Affects.ofP (fun s => by cases s; rfl) (fun _ => rfl) ["ref", "versions"] rfl
  exact ⟨ho,
    (struct_member (F := J.affectsFields) (toP := Affects.toP) (ofP := Affects.ofP) .here hd (fun _ => rfl) (fun _ _ => rfl)),
    (struct_member (F := J.affectsFields) (toP := Affects.toP) (ofP := Affects.ofP) (.there .here) hd (fun _ => rfl) (fun _ _ => rfl))⟩

/-- cyclonedx.go:73-77 -/
theorem json_members_attachedText :
    Object J.attachedText ["content", "contentType", "encoding"] ∧
    Member J.attachedText "content" true JCodec.string (fun x => x.content)
      (fun (x : AttachedText) v => { x with content := v }) ∧
    Member J.attachedText "contentType" false JCodec.string (fun x => x.contentType)
      (fun (x : AttachedText) v => { x with contentType := v }) ∧
    Member J.attachedText "encoding" false JCodec.string (fun x => x.encoding)
      (fun (x : AttachedText) v => { x with encoding := v }) := by
  have hd : JFields.NamesDistinct J.attachedTextFields :=
    show (List.map Json.foldKey ["content", "contentType", "encoding"]).Nodup by decide +kernel
  have ho := struct_object J.attachedTextFields AttachedText.toP AttachedText.ofP (fun s => by cases s; rfl) (fun _ => rfl) ["content", "contentType", "encoding"] rfl
  exact ⟨ho,
    (struct_member (F := J.attachedTextFields) (toP := AttachedText.toP) (ofP := AttachedText.ofP) .here hd (fun _ => rfl) (fun _ _ => rfl)),
    (struct_member (F := J.attachedTextFields) (toP := AttachedText.toP) (ofP := AttachedText.ofP) (.there .here) hd (fun _ => rfl) (fun _ _ => rfl)),
    (struct_member (F := J.attachedTextFields) (toP := AttachedText.toP) (ofP := AttachedText.ofP) (.there (.there .here)) hd (fun _ => rfl) (fun _ _ => rfl))⟩

/-- cyclonedx.go:1277-1280 -/
theorem json_members_property :
    Object J.property ["name", "value"] ∧
    Member J.property "name" true JCodec.string (fun x => x.name)
      (fun (x : Property) v => { x with name := v }) ∧
    Member J.property "value" true JCodec.string (fun x => x.value)
      (fun (x : Property) v => { x with value := v }) := by
  have hd : JFields.NamesDistinct J.propertyFields :=
    show (List.map Json.foldKey ["name", "value"]).Nodup by decide +kernel
  have ho := struct_object J.propertyFields Property.toP Property.ofP (fun s => by cases s; rfl) (fun _ => rfl) ["name", "value"] rfl
  exact ⟨ho,
    (struct_member (F := J.propertyFields) (toP := Property.toP) (ofP := Property.ofP) .here hd (fun _ => rfl) (fun _ _ => rfl)),
    (struct_member (F := J.propertyFields) (toP := Property.toP) (ofP := Property.ofP) (.there .here) hd (fun _ => rfl) (fun _ _ => rfl))⟩

/-- cyclonedx.go:290-294 -/
theorem json_members_componentDataContents :
    Object J.componentDataContents ["attachment", "url", "properties"] ∧
    Member J.componentDataContents "attachment" false (JCodec.option J.attachedText) (fun x => x.attachment)
      (fun (x : ComponentDataContents) v => { x with attachment := v }) ∧
    Member J.componentDataContents "url" false JCodec.string (fun x => x.url)
      (fun (x : ComponentDataContents) v => { x with url := v }) ∧
    Member J.componentDataContents "properties" false (JCodec.pslice J.property) (fun x => x.properties)
      (fun (x : ComponentDataContents) v => { x with properties := v }) := by
  have hd : JFields.NamesDistinct J.componentDataContentsFields :=
    show (List.map Json.foldKey ["attachment", "url", "properties"]).Nodup by decide +kernel
  have ho := struct_object J.componentDataContentsFields ComponentDataContents.toP ComponentDataContents.ofP (fun s => by cases s; rfl) (fun _ => rfl) ["attachment", "url", "properties"] rfl
  exact ⟨ho,
    (struct_member (F := J.componentDataContentsFields) (toP := ComponentDataContents.toP) (ofP := ComponentDataContents.ofP) .here hd (fun _ => rfl) (fun _ _ => rfl)),
    (struct_member (F := J.componentDataContentsFields) (toP := ComponentDataContents.toP) (ofP := ComponentDataContents.ofP) (.there .here) hd (fun _ => rfl) (fun _ _ => rfl)),
    (struct_member (F := J.componentDataContentsFields) (toP := ComponentDataContents.toP) (ofP := ComponentDataContents.ofP) (.there (.there .here)) hd (fun _ => rfl) (fun _ _ => rfl))⟩

/-- cyclonedx.go:301-304 -/
theorem json_members_componentDataGraphic :
    Object J.componentDataGraphic ["name", "image"] ∧
    Member J.componentDataGraphic "name" false JCodec.string (fun x => x.name)
      (fun (x : ComponentDataGraphic) v => { x with name := v }) ∧
    Member J.componentDataGraphic "image" false (JCodec.option J.attachedText) (fun x => x.image)
      (fun (x : ComponentDataGraphic) v => { x with image := v }) := by
  have hd : JFields.NamesDistinct J.componentDataGraphicFields :=
    show (List.map Json.foldKey ["name", "image"]).Nodup by decide +kernel
  have ho := struct_object J.componentDataGraphicFields ComponentDataGraphic.toP ComponentDataGraphic.ofP (fun s => by cases s; rfl) (fun _ => rfl) ["name", "image"] rfl
  exact ⟨ho,
    (struct_member (F := J.componentDataGraphicFields) (toP := ComponentDataGraphic.toP) (ofP := ComponentDataGraphic.ofP) .here hd (fun _ => rfl) (fun _ _ => rfl)),
    (struct_member (F := J.componentDataGraphicFields) (toP := ComponentDataGraphic.toP) (ofP := ComponentDataGraphic.ofP) (.there .here) hd (fun _ => rfl) (fun _ _ => rfl))⟩

/-- cyclonedx.go:306-309 -/
theorem json_members_componentDataGraphics :
    Object J.componentDataGraphics ["description", "collection"] ∧
    Member J.componentDataGraphics "description" false JCodec.string (fun x => x.description)
      (fun (x : ComponentDataGraphics) v => { x with description := v }) ∧
    Member J.componentDataGraphics "collection" false (JCodec.pslice J.componentDataGraphic) (fun x => x.collection)
      (fun (x : ComponentDataGraphics) v => { x with collection := v }) := by
  have hd : JFields.NamesDistinct J.componentDataGraphicsFields :=
    show (List.map Json.foldKey ["description", "collection"]).Nodup by decide +kernel
  have ho := struct_object J.componentDataGraphicsFields ComponentDataGraphics.toP ComponentDataGraphics.ofP (fun s => by cases s; rfl) (fun _ => rfl) ["description", "collection"] rfl
  exact ⟨ho,
    (struct_member (F := J.componentDataGraphicsFields) (toP := ComponentDataGraphics.toP) (ofP := ComponentDataGraphics.ofP) .here hd (fun _ => rfl) (fun _ _ => rfl)),
    (struct_member (F := J.componentDataGraphicsFields) (toP := ComponentDataGraphics.toP) (ofP := ComponentDataGraphics.ofP) (.there .here) hd (fun _ => rfl) (fun _ _ => rfl))⟩

/-- cyclonedx.go:1211-1216 -/
theorem json_members_organizationalContact :
    Object J.organizationalContact ["bom-ref", "name", "email", "phone"] ∧
    Member J.organizationalContact "bom-ref" false JCodec.string (fun x => x.bomRef)
      (fun (x : OrganizationalContact) v => { x with bomRef := v }) ∧
    Member J.organizationalContact "name" false JCodec.string (fun x => x.name)
      (fun (x : OrganizationalContact) v => { x with name := v }) ∧
    Member J.organizationalContact "email" false JCodec.string (fun x => x.email)
      (fun (x : OrganizationalContact) v => { x with email := v }) ∧
    Member J.organizationalContact "phone" false JCodec.string (fun x => x.phone)
      (fun (x : OrganizationalContact) v => { x with phone := v }) := by
  have hd : JFields.NamesDistinct J.organizationalContactFields :=
    show (List.map Json.foldKey ["bom-ref", "name", "email", "phone"]).Nodup by decide +kernel
  have ho := struct_object J.organizationalContactFields OrganizationalContact.toP OrganizationalContact.ofP (fun s => by cases s; rfl) (fun _ => rfl) ["bom-ref", "name", "email", "phone"] rfl
  exact ⟨ho,
    (struct_member (F := J.organizationalContactFields) (toP := OrganizationalContact.toP) (ofP := OrganizationalContact.ofP) .here hd (fun _ => rfl) (fun _ _ => rfl)),
    (struct_member (F := J.organizationalContactFields) (toP := OrganizationalContact.toP) (ofP := OrganizationalContact.ofP) (.there .here) hd (fun _ => rfl) (fun _ _ => rfl)),
    (struct_member (F := J.organizationalContactFields) (toP := OrganizationalContact.toP) (ofP := OrganizationalContact.ofP) (.there (.there .here)) hd (fun _ => rfl) (fun _ _ => rfl)),
    (struct_member (F := J.organizationalContactFields) (toP := OrganizationalContact.toP) (ofP := OrganizationalContact.ofP) (.there (.there (.there .here))) hd (fun _ => rfl) (fun _ _ => rfl))⟩

/-- cyclonedx.go:1261-1269 -/
theorem json_members_postalAddress :
    Object J.postalAddress ["bom-ref", "country", "region", "locality", "postOfficeBoxNumber", "postalCode", "streetAddress"] ∧
    Member J.postalAddress "bom-ref" false JCodec.string (fun x => x.bomRef)
      (fun (x : PostalAddress) v => { x with bomRef := v }) ∧
    Member J.postalAddress "country" false JCodec.string (fun x => x.country)
      (fun (x : PostalAddress) v => { x with country := v }) ∧
    Member J.postalAddress "region" false JCodec.string (fun x => x.region)
      (fun (x : PostalAddress) v => { x with region := v }) ∧
    Member J.postalAddress "locality" false JCodec.string (fun x => x.locality)
      (fun (x : PostalAddress) v => { x with locality := v }) ∧
    Member J.postalAddress "postOfficeBoxNumber" false JCodec.string (fun x => x.postOfficeBoxNumber)
      (fun (x : PostalAddress) v => { x with postOfficeBoxNumber := v }) ∧
    Member J.postalAddress "postalCode" false JCodec.string (fun x => x.postalCode)
      (fun (x : PostalAddress) v => { x with postalCode := v }) ∧
    Member J.postalAddress "streetAddress" false JCodec.string (fun x => x.streetAddress)
      (fun (x : PostalAddress) v => { x with streetAddress := v }) := by
  have hd : JFields.NamesDistinct J.postalAddressFields :=
    show (List.map Json.foldKey ["bom-ref", "country", "region", "locality", "postOfficeBoxNumber", "postalCode", "streetAddress"]).Nodup by decide +kernel
  have ho := struct_object J.postalAddressFields PostalAddress.toP PostalAddress.ofP (fun s => by cases s; rfl) (fun _ => rfl) ["bom-ref", "country", "region", "locality", "postOfficeBoxNumber", "postalCode", "streetAddress"] rfl
  exact ⟨ho,
    (struct_member (F := J.postalAddressFields) (toP := PostalAddress.toP) (ofP := PostalAddress.ofP) .here hd (fun _ => rfl) (fun _ _ => rfl)),
    (struct_member (F := J.postalAddressFields) (toP := PostalAddress.toP) (ofP := PostalAddress.ofP) (.there .here) hd (fun _ => rfl) (fun _ _ => rfl)),
    (struct_member (F := J.postalAddressFields) (toP := PostalAddress.toP) (ofP := PostalAddress.ofP) (.there (.there .here)) hd (fun _ => rfl) (fun _ _ => rfl)),
    (struct_member (F := J.postalAddressFields) (toP := PostalAddress.toP) (ofP := PostalAddress.ofP) (.there (.there (.there .here))) hd (fun _ => rfl) (fun _ _ => rfl)),
    (struct_member (F := J.postalAddressFields) (toP := PostalAddress.toP) (ofP := PostalAddress.ofP) (.there (.there (.there (.there .here)))) hd (fun _ => rfl) (fun _ _ => rfl)),
    (struct_member (F := J.postalAddressFields) (toP := PostalAddress.toP) (ofP := PostalAddress.ofP) (.there (.there (.there (.there (.there .here))))) hd (fun _ => rfl) (fun _ _ => rfl)),
    (struct_member (F := J.postalAddressFields) (toP := PostalAddress.toP) (ofP := PostalAddress.ofP) (.there (.there (.there (.there (.there (.there .here)))))) hd (fun _ => rfl) (fun _ _ => rfl))⟩

/-- cyclonedx.go:1218-1224 -/
theorem json_members_organizationalEntity :
    Object J.organizationalEntity ["bom-ref", "name", "address", "url", "contact"] ∧
    Member J.organizationalEntity "bom-ref" false JCodec.string (fun x => x.bomRef)
      (fun (x : OrganizationalEntity) v => { x with bomRef := v }) ∧
    Member J.organizationalEntity "name" true JCodec.string (fun x => x.name)
      (fun (x : OrganizationalEntity) v => { x with name := v }) ∧
    Member J.organizationalEntity "address" false (JCodec.option J.postalAddress) (fun x => x.address)
      (fun (x : OrganizationalEntity) v => { x with address := v }) ∧
    Member J.organizationalEntity "url" false (JCodec.pslice JCodec.string) (fun x => x.url)
      (fun (x : OrganizationalEntity) v => { x with url := v }) ∧
    Member J.organizationalEntity "contact" false (JCodec.pslice J.organizationalContact) (fun x => x.contact)
      (fun (x : OrganizationalEntity) v => { x with contact := v }) := by
  have hd : JFields.NamesDistinct J.organizationalEntityFields :=
    show (List.map Json.foldKey ["bom-ref", "name", "address", "url", "contact"]).Nodup by decide +kernel
  have ho := struct_object J.organizationalEntityFields OrganizationalEntity.toP OrganizationalEntity.ofP (fun s => by cases s; rfl) (fun _ => rfl) ["bom-ref", "name", "address", "url", "contact"] rfl
  exact ⟨ho,
    (struct_member (F := J.organizationalEntityFields) (toP := OrganizationalEntity.toP) (ofP := OrganizationalEntity.ofP) .here hd (fun _ => rfl) (fun _ _ => rfl)),
    (struct_member (F := J.organizationalEntityFields) (toP := OrganizationalEntity.toP) (ofP := OrganizationalEntity.ofP) (.there .here) hd (fun _ => rfl) (fun _ _ => rfl)),
    (struct_member (F := J.organizationalEntityFields) (toP := OrganizationalEntity.toP) (ofP := OrganizationalEntity.ofP) (.there (.there .here)) hd (fun _ => rfl) (fun _ _ => rfl)),
    (struct_member (F := J.organizationalEntityFields) (toP := OrganizationalEntity.toP) (ofP := OrganizationalEntity.ofP) (.there (.there (.there .here))) hd (fun _ => rfl) (fun _ _ => rfl)),
    (struct_member (F := J.organizationalEntityFields) (toP := OrganizationalEntity.toP) (ofP := OrganizationalEntity.ofP) (.there (.there (.there (.there .here)))) hd (fun _ => rfl) (fun _ _ => rfl))⟩

/-- cyclonedx.go:296-299 -/
theorem json_members_componentDataGovernanceResponsibleParty :
    Object J.componentDataGovernanceResponsibleParty ["organization", "contact"] ∧
    Member J.componentDataGovernanceResponsibleParty "organization" false (JCodec.option J.organizationalEntity) (fun x => x.organization)
      (fun (x : ComponentDataGovernanceResponsibleParty) v => { x with organization := v }) ∧
    Member J.componentDataGovernanceResponsibleParty "contact" false (JCodec.option J.organizationalContact) (fun x => x.contact)
      (fun (x : ComponentDataGovernanceResponsibleParty) v => { x with contact := v }) := by
  have hd : JFields.NamesDistinct J.componentDataGovernanceResponsiblePartyFields :=
    show (List.map Json.foldKey ["organization", "contact"]).Nodup by decide +kernel
  have ho := struct_object J.componentDataGovernanceResponsiblePartyFields ComponentDataGovernanceResponsibleParty.toP ComponentDataGovernanceResponsibleParty.ofP (fun s => by cases s; rfl) (fun _ => rfl) ["organization", "contact"] rfl
  exact ⟨ho,
    (struct_member (F := J.componentDataGovernanceResponsiblePartyFields) (toP := ComponentDataGovernanceResponsibleParty.toP) (ofP := ComponentDataGovernanceResponsibleParty.ofP) .here hd (fun _ => rfl) (fun _ _ => rfl)),
    (struct_member (F := J.componentDataGovernanceResponsiblePartyFields) (toP := ComponentDataGovernanceResponsibleParty.toP) (ofP := ComponentDataGovernanceResponsibleParty.ofP) (.there .here) hd (fun _ => rfl) (fun _ _ => rfl))⟩

/-- cyclonedx.go:570-574 -/
theorem json_members_dataGovernance :
    Object J.dataGovernance ["custodians", "stewards", "owners"] ∧
    Member J.dataGovernance "custodians" false (JCodec.pslice J.componentDataGovernanceResponsibleParty) (fun x => x.custodians)
      (fun (x : DataGovernance) v => { x with custodians := v }) ∧
    Member J.dataGovernance "stewards" false (JCodec.pslice J.componentDataGovernanceResponsibleParty) (fun x => x.stewards)
      (fun (x : DataGovernance) v => { x with stewards := v }) ∧
    Member J.dataGovernance "owners" false (JCodec.pslice J.componentDataGovernanceResponsibleParty) (fun x => x.owners)
      (fun (x : DataGovernance) v => { x with owners := v }) := by
  have hd : JFields.NamesDistinct J.dataGovernanceFields :=
    show (List.map Json.foldKey ["custodians", "stewards", "owners"]).Nodup by decide +kernel
  have ho := struct_object J.dataGovernanceFields DataGovernance.toP DataGovernance.ofP (fun s => by cases s; rfl) (fun _ => rfl) ["custodians", "stewards", "owners"] rfl
  exact ⟨ho,
    (struct_member (F := J.dataGovernanceFields) (toP := DataGovernance.toP) (ofP := DataGovernance.ofP) .here hd (fun _ => rfl) (fun _ _ => rfl)),
    (struct_member (F := J.dataGovernanceFields) (toP := DataGovernance.toP) (ofP := DataGovernance.ofP) (.there .here) hd (fun _ => rfl) (fun _ _ => rfl)),
    (struct_member (F := J.dataGovernanceFields) (toP := DataGovernance.toP) (ofP := DataGovernance.ofP) (.there (.there .here)) hd (fun _ => rfl) (fun _ _ => rfl))⟩

/-- cyclonedx.go:278-288 -/
theorem json_members_componentData :
    Object J.componentData ["bom-ref", "type", "name", "contents", "classification", "sensitiveData", "graphics", "description", "governance"] ∧
    Member J.componentData "bom-ref" false JCodec.string (fun x => x.bomRef)
      (fun (x : ComponentData) v => { x with bomRef := v }) ∧
    Member J.componentData "type" false JCodec.string (fun x => x.type)
      (fun (x : ComponentData) v => { x with type := v }) ∧
    Member J.componentData "name" false JCodec.string (fun x => x.name)
      (fun (x : ComponentData) v => { x with name := v }) ∧
    Member J.componentData "contents" false (JCodec.option J.componentDataContents) (fun x => x.contents)
      (fun (x : ComponentData) v => { x with contents := v }) ∧
    Member J.componentData "classification" false JCodec.string (fun x => x.classification)
      (fun (x : ComponentData) v => { x with classification := v }) ∧
    Member J.componentData "sensitiveData" false (JCodec.pslice JCodec.string) (fun x => x.sensitiveData)
      (fun (x : ComponentData) v => { x with sensitiveData := v }) ∧
    Member J.componentData "graphics" false (JCodec.option J.componentDataGraphics) (fun x => x.graphics)
      (fun (x : ComponentData) v => { x with graphics := v }) ∧
    Member J.componentData "description" false JCodec.string (fun x => x.description)
      (fun (x : ComponentData) v => { x with description := v }) ∧
    Member J.componentData "governance" false (JCodec.option J.dataGovernance) (fun x => x.governance)
      (fun (x : ComponentData) v => { x with governance := v }) := by
  have hd : JFields.NamesDistinct J.componentDataFields :=
    show (List.map Json.foldKey ["bom-ref", "type", "name", "contents", "classification", "sensitiveData", "graphics", "description", "governance"]).Nodup by decide +kernel
  have ho := struct_object J.componentDataFields ComponentData.toP ComponentData.ofP (fun s => by cases s; rfl) (fun _ => rfl) ["bom-ref", "type", "name", "contents", "classification", "sensitiveData", "graphics", "description", "governance"] rfl
  exact ⟨ho,
    (struct_member (F := J.componentDataFields) (toP := ComponentData.toP) (ofP := ComponentData.ofP) .here hd (fun _ => rfl) (fun _ _ => rfl)),
    (struct_member (F := J.componentDataFields) (toP := ComponentData.toP) (ofP := ComponentData.ofP) (.there .here) hd (fun _ => rfl) (fun _ _ => rfl)),
    (struct_member (F := J.componentDataFields) (toP := ComponentData.toP) (ofP := ComponentData.ofP) (.there (.there .here)) hd (fun _ => rfl) (fun _ _ => rfl)),
    (struct_member (F := J.componentDataFields) (toP := ComponentData.toP) (ofP := ComponentData.ofP) (.there (.there (.there .here))) hd (fun _ => rfl) (fun _ _ => rfl)),
    (struct_member (F := J.componentDataFields) (toP := ComponentData.toP) (ofP := ComponentData.ofP) (.there (.there (.there (.there .here)))) hd (fun _ => rfl) (fun _ _ => rfl)),
    (struct_member (F := J.componentDataFields) (toP := ComponentData.toP) (ofP := ComponentData.ofP) (.there (.there (.there (.there (.there .here))))) hd (fun _ => rfl) (fun _ _ => rfl)),
    (struct_member (F := J.componentDataFields) (toP := ComponentData.toP) (ofP := ComponentData.ofP) (.there (.there (.there (.there (.there (.there .here)))))) hd (fun _ => rfl) (fun _ _ => rfl)),
    (struct_member (F := J.componentDataFields) (toP := ComponentData.toP) (ofP := ComponentData.ofP) (.there (.there (.there (.there (.there (.there (.there .here))))))) hd (fun _ => rfl) (fun _ _ => rfl)),
    (struct_member (F := J.componentDataFields) (toP := ComponentData.toP) (ofP := ComponentData.ofP) (.there (.there (.there (.there (.there (.there (.there (.there .here)))))))) hd (fun _ => rfl) (fun _ _ => rfl))⟩

/-- cyclonedx.go:808-811 -/
theorem json_members_hash :
    Object J.hash ["alg", "content"] ∧
    Member J.hash "alg" true JCodec.string (fun x => x.algorithm)
      (fun (x : Hash) v => { x with algorithm := v }) ∧
    Member J.hash "content" true JCodec.string (fun x => x.value)
      (fun (x : Hash) v => { x with value := v }) := by
  have hd : JFields.NamesDistinct J.hashFields :=
    show (List.map Json.foldKey ["alg", "content"]).Nodup by decide +kernel
  have ho := struct_object J.hashFields Hash.toP Hash.ofP (fun s => by cases s; rfl) (fun _ => rfl) ["alg", "content"] rfl
  exact ⟨ho,
    (struct_member (F := J.hashFields) (toP := Hash.toP) (ofP := Hash.ofP) .here hd (fun _ => rfl) (fun _ _ => rfl)),
    (struct_member (F := J.hashFields) (toP := Hash.toP) (ofP := Hash.ofP) (.there .here) hd (fun _ => rfl) (fun _ _ => rfl))⟩

/-- cyclonedx.go:1866-1869 -/
theorem json_members_relatedCryptographicAsset :
    Object J.relatedCryptographicAsset ["type", "ref"] ∧
    Member J.relatedCryptographicAsset "type" false JCodec.string (fun x => x.type)
      (fun (x : RelatedCryptographicAsset) v => { x with type := v }) ∧
    Member J.relatedCryptographicAsset "ref" false JCodec.string (fun x => x.ref)
      (fun (x : RelatedCryptographicAsset) v => { x with ref := v }) := by
  have hd : JFields.NamesDistinct J.relatedCryptographicAssetFields :=
    show (List.map Json.foldKey ["type", "ref"]).Nodup by decide +kernel
  have ho := struct_object J.relatedCryptographicAssetFields RelatedCryptographicAsset.toP RelatedCryptographicAsset.ofP (fun s => by cases s; rfl) (fun _ => rfl) ["type", "ref"] rfl
  exact ⟨ho,
    (struct_member (F := J.relatedCryptographicAssetFields) (toP := RelatedCryptographicAsset.toP) (ofP := RelatedCryptographicAsset.ofP) .here hd (fun _ => rfl) (fun _ _ => rfl)),
    (struct_member (F := J.relatedCryptographicAssetFields) (toP := RelatedCryptographicAsset.toP) (ofP := RelatedCryptographicAsset.ofP) (.there .here) hd (fun _ => rfl) (fun _ _ => rfl))⟩

/-- cyclonedx.go:1880-1883 -/
theorem json_members_predefinedCertificateState :
    Object J.predefinedCertificateState ["state", "reason"] ∧
    Member J.predefinedCertificateState "state" true JCodec.string (fun x => x.state)
      (fun (x : PredefinedCertificateState) v => { x with state := v }) ∧
    Member J.predefinedCertificateState "reason" false JCodec.string (fun x => x.reason)
      (fun (x : PredefinedCertificateState) v => { x with reason := v }) := by
  have hd : JFields.NamesDistinct J.predefinedCertificateStateFields :=
    show (List.map Json.foldKey ["state", "reason"]).Nodup by decide +kernel
  have ho := struct_object J.predefinedCertificateStateFields PredefinedCertificateState.toP PredefinedCertificateState.ofP (fun s => by cases s; rfl) (fun _ => rfl) ["state", "reason"] rfl
  exact ⟨ho,
    (struct_member (F := J.predefinedCertificateStateFields) (toP := PredefinedCertificateState.toP) (ofP := PredefinedCertificateState.ofP) .here hd (fun _ => rfl) (fun _ _ => rfl)),
    (struct_member (F := J.predefinedCertificateStateFields) (toP := PredefinedCertificateState.toP) (ofP := PredefinedCertificateState.ofP) (.there .here) hd (fun _ => rfl) (fun _ _ => rfl))⟩

/-- cyclonedx.go:1886-1890 -/
theorem json_members_customCertificateState :
    Object J.customCertificateState ["name", "description", "reason"] ∧
    Member J.customCertificateState "name" true JCodec.string (fun x => x.name)
      (fun (x : CustomCertificateState) v => { x with name := v }) ∧
    Member J.customCertificateState "description" false JCodec.string (fun x => x.description)
      (fun (x : CustomCertificateState) v => { x with description := v }) ∧
    Member J.customCertificateState "reason" false JCodec.string (fun x => x.reason)
      (fun (x : CustomCertificateState) v => { x with reason := v }) := by
  have hd : JFields.NamesDistinct J.customCertificateStateFields :=
    show (List.map Json.foldKey ["name", "description", "reason"]).Nodup by decide +kernel
  have ho := struct_object J.customCertificateStateFields CustomCertificateState.toP CustomCertificateState.ofP (fun s => by cases s; rfl) (fun _ => rfl) ["name", "description", "reason"] rfl
  exact ⟨ho,
    (struct_member (F := J.customCertificateStateFields) (toP := CustomCertificateState.toP) (ofP := CustomCertificateState.ofP) .here hd (fun _ => rfl) (fun _ _ => rfl)),
    (struct_member (F := J.customCertificateStateFields) (toP := CustomCertificateState.toP) (ofP := CustomCertificateState.ofP) (.there .here) hd (fun _ => rfl) (fun _ _ => rfl)),
    (struct_member (F := J.customCertificateStateFields) (toP := CustomCertificateState.toP) (ofP := CustomCertificateState.ofP) (.there (.there .here)) hd (fun _ => rfl) (fun _ _ => rfl))⟩

/-- cyclonedx.go:1913-1916 -/
theorem json_members_commonCertificateExtension :
    Object J.commonCertificateExtension ["commonExtensionName", "commonExtensionValue"] ∧
    Member J.commonCertificateExtension "commonExtensionName" true JCodec.string (fun x => x.name)
      (fun (x : CommonCertificateExtension) v => { x with name := v }) ∧
    Member J.commonCertificateExtension "commonExtensionValue" false JCodec.string (fun x => x.value)
      (fun (x : CommonCertificateExtension) v => { x with value := v }) := by
  have hd : JFields.NamesDistinct J.commonCertificateExtensionFields :=
    show (List.map Json.foldKey ["commonExtensionName", "commonExtensionValue"]).Nodup by decide +kernel
  have ho := struct_object J.commonCertificateExtensionFields CommonCertificateExtension.toP CommonCertificateExtension.ofP (fun s => by cases s; rfl) (fun _ => rfl) ["commonExtensionName", "commonExtensionValue"] rfl
  exact ⟨ho,
    (struct_member (F := J.commonCertificateExtensionFields) (toP := CommonCertificateExtension.toP) (ofP := CommonCertificateExtension.ofP) .here hd (fun _ => rfl) (fun _ _ => rfl)),
    (struct_member (F := J.commonCertificateExtensionFields) (toP := CommonCertificateExtension.toP) (ofP := CommonCertificateExtension.ofP) (.there .here) hd (fun _ => rfl) (fun _ _ => rfl))⟩

/-- cyclonedx.go:1919-1922 -/
theorem json_members_customCertificateExtension :
    Object J.customCertificateExtension ["customExtensionName", "customExtensionValue"] ∧
    Member J.customCertificateExtension "customExtensionName" true JCodec.string (fun x => x.name)
      (fun (x : CustomCertificateExtension) v => { x with name := v }) ∧
    Member J.customCertificateExtension "customExtensionValue" false JCodec.string (fun x => x.value)
      (fun (x : CustomCertificateExtension) v => { x with value := v }) := by
  have hd : JFields.NamesDistinct J.customCertificateExtensionFields :=
    show (List.map Json.foldKey ["customExtensionName", "customExtensionValue"]).Nodup by decide +kernel
  have ho := struct_object J.customCertificateExtensionFields CustomCertificateExtension.toP CustomCertificateExtension.ofP (fun s => by cases s; rfl) (fun _ => rfl) ["customExtensionName", "customExtensionValue"] rfl
  exact ⟨ho,
    (struct_member (F := J.customCertificateExtensionFields) (toP := CustomCertificateExtension.toP) (ofP := CustomCertificateExtension.ofP) .here hd (fun _ => rfl) (fun _ _ => rfl)),
    (struct_member (F := J.customCertificateExtensionFields) (toP := CustomCertificateExtension.toP) (ofP := CustomCertificateExtension.ofP) (.there .here) hd (fun _ => rfl) (fun _ _ => rfl))⟩

/-- cyclonedx.go:171-191 -/
theorem json_members_certificateProperties :
    Object J.certificateProperties ["serialNumber", "subjectName", "issuerName", "notValidBefore", "notValidAfter", "signatureAlgorithmRef", "subjectPublicKeyRef", "certificateFormat", "certificateExtension", "certificateFileExtension", "fingerprint", "certificateState", "certificateExtensions", "relatedCryptographicAssets", "creationDate", "activationDate", "deactivationDate", "revocationDate", "destructionDate"] ∧
    Member J.certificateProperties "serialNumber" false JCodec.string (fun x => x.serialNumber)
      (fun (x : CertificateProperties) v => { x with serialNumber := v }) ∧
    Member J.certificateProperties "subjectName" false JCodec.string (fun x => x.subjectName)
      (fun (x : CertificateProperties) v => { x with subjectName := v }) ∧
    Member J.certificateProperties "issuerName" false JCodec.string (fun x => x.issuerName)
      (fun (x : CertificateProperties) v => { x with issuerName := v }) ∧
    Member J.certificateProperties "notValidBefore" false JCodec.string (fun x => x.notValidBefore)
      (fun (x : CertificateProperties) v => { x with notValidBefore := v }) ∧
    Member J.certificateProperties "notValidAfter" false JCodec.string (fun x => x.notValidAfter)
      (fun (x : CertificateProperties) v => { x with notValidAfter := v }) ∧
    Member J.certificateProperties "signatureAlgorithmRef" false J.bomReference (fun x => x.signatureAlgorithmRef)
      (fun (x : CertificateProperties) v => { x with signatureAlgorithmRef := v }) ∧
    Member J.certificateProperties "subjectPublicKeyRef" false J.bomReference (fun x => x.subjectPublicKeyRef)
      (fun (x : CertificateProperties) v => { x with subjectPublicKeyRef := v }) ∧
    Member J.certificateProperties "certificateFormat" false JCodec.string (fun x => x.certificateFormat)
      (fun (x : CertificateProperties) v => { x with certificateFormat := v }) ∧
    Member J.certificateProperties "certificateExtension" false JCodec.string (fun x => x.certificateExtension)
      (fun (x : CertificateProperties) v => { x with certificateExtension := v }) ∧
    Member J.certificateProperties "certificateFileExtension" false JCodec.string (fun x => x.certificateFileExtension)
      (fun (x : CertificateProperties) v => { x with certificateFileExtension := v }) ∧
    Member J.certificateProperties "fingerprint" false (JCodec.option J.hash) (fun x => x.fingerprint)
      (fun (x : CertificateProperties) v => { x with fingerprint := v }) ∧
    Member J.certificateProperties "certificateState" false (JCodec.pslice J.certificateState) (fun x => x.certificateState)
      (fun (x : CertificateProperties) v => { x with certificateState := v }) ∧
    Member J.certificateProperties "certificateExtensions" false (JCodec.pslice J.certificateExtension) (fun x => x.certificateExtensions)
      (fun (x : CertificateProperties) v => { x with certificateExtensions := v }) ∧
    Member J.certificateProperties "relatedCryptographicAssets" false (JCodec.pslice J.relatedCryptographicAsset) (fun x => x.relatedCryptographicAssets)
      (fun (x : CertificateProperties) v => { x with relatedCryptographicAssets := v }) ∧
    Member J.certificateProperties "creationDate" false JCodec.string (fun x => x.creationDate)
      (fun (x : CertificateProperties) v => { x with creationDate := v }) ∧
    Member J.certificateProperties "activationDate" false JCodec.string (fun x => x.activationDate)
      (fun (x : CertificateProperties) v => { x with activationDate := v }) ∧
    Member J.certificateProperties "deactivationDate" false JCodec.string (fun x => x.deactivationDate)
      (fun (x : CertificateProperties) v => { x with deactivationDate := v }) ∧
    Member J.certificateProperties "revocationDate" false JCodec.string (fun x => x.revocationDate)
      (fun (x : CertificateProperties) v => { x with revocationDate := v }) ∧
    Member J.certificateProperties "destructionDate" false JCodec.string (fun x => x.destructionDate)
      (fun (x : CertificateProperties) v => { x with destructionDate := v }) := by
  have hd : JFields.NamesDistinct J.certificatePropertiesFields :=
    show (List.map Json.foldKey ["serialNumber", "subjectName", "issuerName", "notValidBefore", "notValidAfter", "signatureAlgorithmRef", "subjectPublicKeyRef", "certificateFormat", "certificateExtension", "certificateFileExtension", "fingerprint", "certificateState", "certificateExtensions", "relatedCryptographicAssets", "creationDate", "activationDate", "deactivationDate", "revocationDate", "destructionDate"]).Nodup by decide +kernel
  have ho := struct_object J.certificatePropertiesFields CertificateProperties.toP CertificateProperties.ofP (fun s => by cases s; rfl) (fun _ => rfl) ["serialNumber", "subjectName", "issuerName", "notValidBefore", "notValidAfter", "signatureAlgorithmRef", "subjectPublicKeyRef", "certificateFormat", "certificateExtension", "certificateFileExtension", "fingerprint", "certificateState", "certificateExtensions", "relatedCryptographicAssets", "creationDate", "activationDate", "deactivationDate", "revocationDate", "destructionDate"] rfl
  exact ⟨ho,
    (struct_member (F := J.certificatePropertiesFields) (toP := CertificateProperties.toP) (ofP := CertificateProperties.ofP) .here hd (fun _ => rfl) (fun _ _ => rfl)),
    (struct_member (F := J.certificatePropertiesFields) (toP := CertificateProperties.toP) (ofP := CertificateProperties.ofP) (.there .here) hd (fun _ => rfl) (fun _ _ => rfl)),
    (struct_member (F := J.certificatePropertiesFields) (toP := CertificateProperties.toP) (ofP := CertificateProperties.ofP) (.there (.there .here)) hd (fun _ => rfl) (fun _ _ => rfl)),
    (struct_member (F := J.certificatePropertiesFields) (toP := CertificateProperties.toP) (ofP := CertificateProperties.ofP) (.there (.there (.there .here))) hd (fun _ => rfl) (fun _ _ => rfl)),
    (struct_member (F := J.certificatePropertiesFields) (toP := CertificateProperties.toP) (ofP := CertificateProperties.ofP) (.there (.there (.there (.there .here)))) hd (fun _ => rfl) (fun _ _ => rfl)),
    (struct_member (F := J.certificatePropertiesFields) (toP := CertificateProperties.toP) (ofP := CertificateProperties.ofP) (.there (.there (.there (.there (.there .here))))) hd (fun _ => rfl) (fun _ _ => rfl)),
    (struct_member (F := J.certificatePropertiesFields) (toP := CertificateProperties.toP) (ofP := CertificateProperties.ofP) (.there (.there (.there (.there (.there (.there .here)))))) hd (fun _ => rfl) (fun _ _ => rfl)),
    (struct_member (F := J.certificatePropertiesFields) (toP := CertificateProperties.toP) (ofP := CertificateProperties.ofP) (.there (.there (.there (.there (.there (.there (.there .here))))))) hd (fun _ => rfl) (fun _ _ => rfl)),
    (struct_member (F := J.certificatePropertiesFields) (toP := CertificateProperties.toP) (ofP := CertificateProperties.ofP) (.there (.there (.there (.there (.there (.there (.there (.there .here)))))))) hd (fun _ => rfl) (fun _ _ => rfl)),
    (struct_member (F := J.certificatePropertiesFields) (toP := CertificateProperties.toP) (ofP := CertificateProperties.ofP) (.there (.there (.there (.there (.there (.there (.there (.there (.there .here))))))))) hd (fun _ => rfl) (fun _ _ => rfl)),
    (struct_member (F := J.certificatePropertiesFields) (toP := CertificateProperties.toP) (ofP := CertificateProperties.ofP) (.there (.there (.there (.there (.there (.there (.there (.there (.there (.there .here)))))))))) hd (fun _ => rfl) (fun _ _ => rfl)),
    (struct_member (F := J.certificatePropertiesFields) (toP := CertificateProperties.toP) (ofP := CertificateProperties.ofP) (.there (.there (.there (.there (.there (.there (.there (.there (.there (.there (.there .here))))))))))) hd (fun _ => rfl) (fun _ _ => rfl)),
    (struct_member (F := J.certificatePropertiesFields) (toP := CertificateProperties.toP) (ofP := CertificateProperties.ofP) (.there (.there (.there (.there (.there (.there (.there (.there (.there (.there (.there (.there .here)))))))))))) hd (fun _ => rfl) (fun _ _ => rfl)),
    (struct_member (F := J.certificatePropertiesFields) (toP := CertificateProperties.toP) (ofP := CertificateProperties.ofP) (.there (.there (.there (.there (.there (.there (.there (.there (.there (.there (.there (.there (.there .here))))))))))))) hd (fun _ => rfl) (fun _ _ => rfl)),
    (struct_member (F := J.certificatePropertiesFields) (toP := CertificateProperties.toP) (ofP := CertificateProperties.ofP) (.there (.there (.there (.there (.there (.there (.there (.there (.there (.there (.there (.there (.there (.there .here)))))))))))))) hd (fun _ => rfl) (fun _ _ => rfl)),
    (struct_member (F := J.certificatePropertiesFields) (toP := CertificateProperties.toP) (ofP := CertificateProperties.ofP) (.there (.there (.there (.there (.there (.there (.there (.there (.there (.there (.there (.there (.there (.there (.there .here))))))))))))))) hd (fun _ => rfl) (fun _ _ => rfl)),
    (struct_member (F := J.certificatePropertiesFields) (toP := CertificateProperties.toP) (ofP := CertificateProperties.ofP) (.there (.there (.there (.there (.there (.there (.there (.there (.there (.there (.there (.there (.there (.there (.there (.there .here)))))))))))))))) hd (fun _ => rfl) (fun _ _ => rfl)),
    (struct_member (F := J.certificatePropertiesFields) (toP := CertificateProperties.toP) (ofP := CertificateProperties.ofP) (.there (.there (.there (.there (.there (.there (.there (.there (.there (.there (.there (.there (.there (.there (.there (.there (.there .here))))))))))))))))) hd (fun _ => rfl) (fun _ _ => rfl)),
    (struct_member (F := J.certificatePropertiesFields) (toP := CertificateProperties.toP) (ofP := CertificateProperties.ofP) (.there (.there (.there (.there (.there (.there (.there (.there (.there (.there (.there (.there (.there (.there (.there (.there (.there (.there .here)))))))))))))))))) hd (fun _ => rfl) (fun _ _ => rfl))⟩

/-- cyclonedx.go:368-382 -/
theorem json_members_cryptoAlgorithmProperties :
    Object J.cryptoAlgorithmProperties ["primitive", "parameterSetIdentifier", "algorithmFamily", "curve", "ellipticCurve", "executionEnvironment", "implementationPlatform", "certificationLevel", "mode", "padding", "cryptoFunctions", "classicalSecurityLevel", "nistQuantumSecurityLevel"] ∧
    Member J.cryptoAlgorithmProperties "primitive" false JCodec.string (fun x => x.primitive)
      (fun (x : CryptoAlgorithmProperties) v => { x with primitive := v }) ∧
    Member J.cryptoAlgorithmProperties "parameterSetIdentifier" false JCodec.string (fun x => x.parameterSetIdentifier)
      (fun (x : CryptoAlgorithmProperties) v => { x with parameterSetIdentifier := v }) ∧
    Member J.cryptoAlgorithmProperties "algorithmFamily" false JCodec.string (fun x => x.algorithmFamily)
      (fun (x : CryptoAlgorithmProperties) v => { x with algorithmFamily := v }) ∧
    Member J.cryptoAlgorithmProperties "curve" false JCodec.string (fun x => x.curve)
      (fun (x : CryptoAlgorithmProperties) v => { x with curve := v }) ∧
    Member J.cryptoAlgorithmProperties "ellipticCurve" false JCodec.string (fun x => x.ellipticCurve)
      (fun (x : CryptoAlgorithmProperties) v => { x with ellipticCurve := v }) ∧
    Member J.cryptoAlgorithmProperties "executionEnvironment" false JCodec.string (fun x => x.executionEnvironment)
      (fun (x : CryptoAlgorithmProperties) v => { x with executionEnvironment := v }) ∧
    Member J.cryptoAlgorithmProperties "implementationPlatform" false JCodec.string (fun x => x.implementationPlatform)
      (fun (x : CryptoAlgorithmProperties) v => { x with implementationPlatform := v }) ∧
    Member J.cryptoAlgorithmProperties "certificationLevel" false (JCodec.pslice JCodec.string) (fun x => x.certificationLevel)
      (fun (x : CryptoAlgorithmProperties) v => { x with certificationLevel := v }) ∧
    Member J.cryptoAlgorithmProperties "mode" false JCodec.string (fun x => x.mode)
      (fun (x : CryptoAlgorithmProperties) v => { x with mode := v }) ∧
    Member J.cryptoAlgorithmProperties "padding" false JCodec.string (fun x => x.padding)
      (fun (x : CryptoAlgorithmProperties) v => { x with padding := v }) ∧
    Member J.cryptoAlgorithmProperties "cryptoFunctions" false (JCodec.pslice JCodec.string) (fun x => x.cryptoFunctions)
      (fun (x : CryptoAlgorithmProperties) v => { x with cryptoFunctions := v }) ∧
    Member J.cryptoAlgorithmProperties "classicalSecurityLevel" false (JCodec.option JCodec.int) (fun x => x.classicalSecurityLevel)
      (fun (x : CryptoAlgorithmProperties) v => { x with classicalSecurityLevel := v }) ∧
    Member J.cryptoAlgorithmProperties "nistQuantumSecurityLevel" false (JCodec.option JCodec.int) (fun x => x.nistQuantumSecurityLevel)
      (fun (x : CryptoAlgorithmProperties) v => { x with nistQuantumSecurityLevel := v }) := by
  have hd : JFields.NamesDistinct J.cryptoAlgorithmPropertiesFields :=
    show (List.map Json.foldKey ["primitive", "parameterSetIdentifier", "algorithmFamily", "curve", "ellipticCurve", "executionEnvironment", "implementationPlatform", "certificationLevel", "mode", "padding", "cryptoFunctions", "classicalSecurityLevel", "nistQuantumSecurityLevel"]).Nodup by decide +kernel
  have ho := struct_object J.cryptoAlgorithmPropertiesFields CryptoAlgorithmProperties.toP CryptoAlgorithmProperties.ofP (fun s => by cases s; rfl) (fun _ => rfl) ["primitive", "parameterSetIdentifier", "algorithmFamily", "curve", "ellipticCurve", "executionEnvironment", "implementationPlatform", "certificationLevel", "mode", "padding", "cryptoFunctions", "classicalSecurityLevel", "nistQuantumSecurityLevel"] rfl
  exact ⟨ho,
    (struct_member (F := J.cryptoAlgorithmPropertiesFields) (toP := CryptoAlgorithmProperties.toP) (ofP := CryptoAlgorithmProperties.ofP) .here hd (fun _ => rfl) (fun _ _ => rfl)),
    (struct_member (F := J.cryptoAlgorithmPropertiesFields) (toP := CryptoAlgorithmProperties.toP) (ofP := CryptoAlgorithmProperties.ofP) (.there .here) hd (fun _ => rfl) (fun _ _ => rfl)),
    (struct_member (F := J.cryptoAlgorithmPropertiesFields) (toP := CryptoAlgorithmProperties.toP) (ofP := CryptoAlgorithmProperties.ofP) (.there (.there .here)) hd (fun _ => rfl) (fun _ _ => rfl)),
    (struct_member (F := J.cryptoAlgorithmPropertiesFields) (toP := CryptoAlgorithmProperties.toP) (ofP := CryptoAlgorithmProperties.ofP) (.there (.there (.there .here))) hd (fun _ => rfl) (fun _ _ => rfl)),
    (struct_member (F := J.cryptoAlgorithmPropertiesFields) (toP := CryptoAlgorithmProperties.toP) (ofP := CryptoAlgorithmProperties.ofP) (.there (.there (.there (.there .here)))) hd (fun _ => rfl) (fun _ _ => rfl)),
    (struct_member (F := J.cryptoAlgorithmPropertiesFields) (toP := CryptoAlgorithmProperties.toP) (ofP := CryptoAlgorithmProperties.ofP) (.there (.there (.there (.there (.there .here))))) hd (fun _ => rfl) (fun _ _ => rfl)),
    (struct_member (F := J.cryptoAlgorithmPropertiesFields) (toP := CryptoAlgorithmProperties.toP) (ofP := CryptoAlgorithmProperties.ofP) (.there (.there (.there (.there (.there (.there .here)))))) hd (fun _ => rfl) (fun _ _ => rfl)),
    (struct_member (F := J.cryptoAlgorithmPropertiesFields) (toP := CryptoAlgorithmProperties.toP) (ofP := CryptoAlgorithmProperties.ofP) (.there (.there (.there (.there (.there (.there (.there .here))))))) hd (fun _ => rfl) (fun _ _ => rfl)),
    (struct_member (F := J.cryptoAlgorithmPropertiesFields) (toP := CryptoAlgorithmProperties.toP) (ofP := CryptoAlgorithmProperties.ofP) (.there (.there (.there (.there (.there (.there (.there (.there .here)))))))) hd (fun _ => rfl) (fun _ _ => rfl)),
    (struct_member (F := J.cryptoAlgorithmPropertiesFields) (toP := CryptoAlgorithmProperties.toP) (ofP := CryptoAlgorithmProperties.ofP) (.there (.there (.there (.there (.there (.there (.there (.there (.there .here))))))))) hd (fun _ => rfl) (fun _ _ => rfl)),
    (struct_member (F := J.cryptoAlgorithmPropertiesFields) (toP := CryptoAlgorithmProperties.toP) (ofP := CryptoAlgorithmProperties.ofP) (.there (.there (.there (.there (.there (.there (.there (.there (.there (.there .here)))))))))) hd (fun _ => rfl) (fun _ _ => rfl)),
    (struct_member (F := J.cryptoAlgorithmPropertiesFields) (toP := CryptoAlgorithmProperties.toP) (ofP := CryptoAlgorithmProperties.ofP) (.there (.there (.there (.there (.there (.there (.there (.there (.there (.there (.there .here))))))))))) hd (fun _ => rfl) (fun _ _ => rfl)),
    (struct_member (F := J.cryptoAlgorithmPropertiesFields) (toP := CryptoAlgorithmProperties.toP) (ofP := CryptoAlgorithmProperties.ofP) (.there (.there (.there (.there (.there (.there (.there (.there (.there (.there (.there (.there .here)))))))))))) hd (fun _ => rfl) (fun _ _ => rfl))⟩

/-- cyclonedx.go:205-211 -/
theorem json_members_cipherSuite :
    Object J.cipherSuite ["name", "algorithms", "identifiers", "tlsGroups", "tlsSignatureSchemes"] ∧
    Member J.cipherSuite "name" false JCodec.string (fun x => x.name)
      (fun (x : CipherSuite) v => { x with name := v }) ∧
    Member J.cipherSuite "algorithms" false (JCodec.pslice J.bomReference) (fun x => x.algorithms)
      (fun (x : CipherSuite) v => { x with algorithms := v }) ∧
    Member J.cipherSuite "identifiers" false (JCodec.pslice JCodec.string) (fun x => x.identifiers)
      (fun (x : CipherSuite) v => { x with identifiers := v }) ∧
    Member J.cipherSuite "tlsGroups" false (JCodec.pslice JCodec.string) (fun x => x.tlsGroups)
      (fun (x : CipherSuite) v => { x with tlsGroups := v }) ∧
    Member J.cipherSuite "tlsSignatureSchemes" false (JCodec.pslice JCodec.string) (fun x => x.tlsSignatureSchemes)
      (fun (x : CipherSuite) v => { x with tlsSignatureSchemes := v }) := by
  have hd : JFields.NamesDistinct J.cipherSuiteFields :=
    show (List.map Json.foldKey ["name", "algorithms", "identifiers", "tlsGroups", "tlsSignatureSchemes"]).Nodup by decide +kernel
  have ho := struct_object J.cipherSuiteFields CipherSuite.toP CipherSuite.ofP (fun s => by cases s; rfl) (fun _ => rfl) ["name", "algorithms", "identifiers", "tlsGroups", "tlsSignatureSchemes"] rfl
  exact ⟨ho,
    (struct_member (F := J.cipherSuiteFields) (toP := CipherSuite.toP) (ofP := CipherSuite.ofP) .here hd (fun _ => rfl) (fun _ _ => rfl)),
    (struct_member (F := J.cipherSuiteFields) (toP := CipherSuite.toP) (ofP := CipherSuite.ofP) (.there .here) hd (fun _ => rfl) (fun _ _ => rfl)),
    (struct_member (F := J.cipherSuiteFields) (toP := CipherSuite.toP) (ofP := CipherSuite.ofP) (.there (.there .here)) hd (fun _ => rfl) (fun _ _ => rfl)),
    (struct_member (F := J.cipherSuiteFields) (toP := CipherSuite.toP) (ofP := CipherSuite.ofP) (.there (.there (.there .here))) hd (fun _ => rfl) (fun _ _ => rfl)),
    (struct_member (F := J.cipherSuiteFields) (toP := CipherSuite.toP) (ofP := CipherSuite.ofP) (.there (.there (.there (.there .here)))) hd (fun _ => rfl) (fun _ _ => rfl))⟩

/-- cyclonedx.go:1826-1830 (for a value without a reference, which is written as a string instead) -/
theorem json_members_ikev2Auth :
    Object (JCodec.struct J.ikev2AuthFields IKEv2Auth.toP IKEv2Auth.ofP) ["name", "algorithm"] ∧
    Member (JCodec.struct J.ikev2AuthFields IKEv2Auth.toP IKEv2Auth.ofP) "name" false JCodec.string (fun x => x.name)
      (fun (x : IKEv2Auth) v => { x with name := v }) ∧
    Member (JCodec.struct J.ikev2AuthFields IKEv2Auth.toP IKEv2Auth.ofP) "algorithm" false JCodec.string (fun x => x.algorithm)
      (fun (x : IKEv2Auth) v => { x with algorithm := v }) := by
  have hd : JFields.NamesDistinct J.ikev2AuthFields :=
    show (List.map Json.foldKey ["name", "algorithm"]).Nodup by decide +kernel
  have ho := struct_object J.ikev2AuthFields IKEv2Auth.toP IKEv2Auth.ofP (fun s => by cases s; rfl) (fun _ => rfl) ["name", "algorithm"] rfl
  exact ⟨ho,
    (struct_member (F := J.ikev2AuthFields) (toP := IKEv2Auth.toP) (ofP := IKEv2Auth.ofP) (.skip .here) hd (fun _ => rfl) (fun _ _ => rfl)),
    (struct_member (F := J.ikev2AuthFields) (toP := IKEv2Auth.toP) (ofP := IKEv2Auth.ofP) (.skip (.there .here)) hd (fun _ => rfl) (fun _ _ => rfl))⟩

/-- cyclonedx.go:1834-1839 (for a value without a reference, which is written as a string instead) -/
theorem json_members_ikev2Enc :
    Object (JCodec.struct J.ikev2EncFields IKEv2Enc.toP IKEv2Enc.ofP) ["name", "keyLength", "algorithm"] ∧
    Member (JCodec.struct J.ikev2EncFields IKEv2Enc.toP IKEv2Enc.ofP) "name" false JCodec.string (fun x => x.name)
      (fun (x : IKEv2Enc) v => { x with name := v }) ∧
    Member (JCodec.struct J.ikev2EncFields IKEv2Enc.toP IKEv2Enc.ofP) "keyLength" false (JCodec.option JCodec.int) (fun x => x.keyLength)
      (fun (x : IKEv2Enc) v => { x with keyLength := v }) ∧
    Member (JCodec.struct J.ikev2EncFields IKEv2Enc.toP IKEv2Enc.ofP) "algorithm" false JCodec.string (fun x => x.algorithm)
      (fun (x : IKEv2Enc) v => { x with algorithm := v }) := by
  have hd : JFields.NamesDistinct J.ikev2EncFields :=
    show (List.map Json.foldKey ["name", "keyLength", "algorithm"]).Nodup by decide +kernel
  have ho := struct_object J.ikev2EncFields IKEv2Enc.toP IKEv2Enc.ofP (fun s => by cases s; rfl) (fun _ => rfl) ["name", "keyLength", "algorithm"] rfl
  exact ⟨ho,
    (struct_member (F := J.ikev2EncFields) (toP := IKEv2Enc.toP) (ofP := IKEv2Enc.ofP) (.skip .here) hd (fun _ => rfl) (fun _ _ => rfl)),
    (struct_member (F := J.ikev2EncFields) (toP := IKEv2Enc.toP) (ofP := IKEv2Enc.ofP) (.skip (.there .here)) hd (fun _ => rfl) (fun _ _ => rfl)),
    (struct_member (F := J.ikev2EncFields) (toP := IKEv2Enc.toP) (ofP := IKEv2Enc.ofP) (.skip (.there (.there .here))) hd (fun _ => rfl) (fun _ _ => rfl))⟩

/-- cyclonedx.go:1843-1847 (for a value without a reference, which is written as a string instead) -/
theorem json_members_ikev2Integ :
    Object (JCodec.struct J.ikev2IntegFields IKEv2Integ.toP IKEv2Integ.ofP) ["name", "algorithm"] ∧
    Member (JCodec.struct J.ikev2IntegFields IKEv2Integ.toP IKEv2Integ.ofP) "name" false JCodec.string (fun x => x.name)
      (fun (x : IKEv2Integ) v => { x with name := v }) ∧
    Member (JCodec.struct J.ikev2IntegFields IKEv2Integ.toP IKEv2Integ.ofP) "algorithm" false JCodec.string (fun x => x.algorithm)
      (fun (x : IKEv2Integ) v => { x with algorithm := v }) := by
  have hd : JFields.NamesDistinct J.ikev2IntegFields :=
    show (List.map Json.foldKey ["name", "algorithm"]).Nodup by decide +kernel
  have ho := struct_object J.ikev2IntegFields IKEv2Integ.toP IKEv2Integ.ofP (fun s => by cases s; rfl) (fun _ => rfl) ["name", "algorithm"] rfl
  exact ⟨ho,
    (struct_member (F := J.ikev2IntegFields) (toP := IKEv2Integ.toP) (ofP := IKEv2Integ.ofP) (.skip .here) hd (fun _ => rfl) (fun _ _ => rfl)),
    (struct_member (F := J.ikev2IntegFields) (toP := IKEv2Integ.toP) (ofP := IKEv2Integ.ofP) (.skip (.there .here)) hd (fun _ => rfl) (fun _ _ => rfl))⟩

/-- cyclonedx.go:1851-1855 (for a value without a reference, which is written as a string instead) -/
theorem json_members_ikev2Ke :
    Object (JCodec.struct J.ikev2KeFields IKEv2Ke.toP IKEv2Ke.ofP) ["group", "algorithm"] ∧
    Member (JCodec.struct J.ikev2KeFields IKEv2Ke.toP IKEv2Ke.ofP) "group" false (JCodec.option JCodec.int) (fun x => x.group)
      (fun (x : IKEv2Ke) v => { x with group := v }) ∧
    Member (JCodec.struct J.ikev2KeFields IKEv2Ke.toP IKEv2Ke.ofP) "algorithm" false JCodec.string (fun x => x.algorithm)
      (fun (x : IKEv2Ke) v => { x with algorithm := v }) := by
  have hd : JFields.NamesDistinct J.ikev2KeFields :=
    show (List.map Json.foldKey ["group", "algorithm"]).Nodup by decide +kernel
  have ho := struct_object J.ikev2KeFields IKEv2Ke.toP IKEv2Ke.ofP (fun s => by cases s; rfl) (fun _ => rfl) ["group", "algorithm"] rfl
  exact ⟨ho,
    (struct_member (F := J.ikev2KeFields) (toP := IKEv2Ke.toP) (ofP := IKEv2Ke.ofP) (.skip .here) hd (fun _ => rfl) (fun _ _ => rfl)),
    (struct_member (F := J.ikev2KeFields) (toP := IKEv2Ke.toP) (ofP := IKEv2Ke.ofP) (.skip (.there .here)) hd (fun _ => rfl) (fun _ _ => rfl))⟩

/-- cyclonedx.go:1859-1863 (for a value without a reference, which is written as a string instead) -/
theorem json_members_ikev2Prf :
    Object (JCodec.struct J.ikev2PrfFields IKEv2Prf.toP IKEv2Prf.ofP) ["name", "algorithm"] ∧
    Member (JCodec.struct J.ikev2PrfFields IKEv2Prf.toP IKEv2Prf.ofP) "name" false JCodec.string (fun x => x.name)
      (fun (x : IKEv2Prf) v => { x with name := v }) ∧
    Member (JCodec.struct J.ikev2PrfFields IKEv2Prf.toP IKEv2Prf.ofP) "algorithm" false JCodec.string (fun x => x.algorithm)
      (fun (x : IKEv2Prf) v => { x with algorithm := v }) := by
  have hd : JFields.NamesDistinct J.ikev2PrfFields :=
    show (List.map Json.foldKey ["name", "algorithm"]).Nodup by decide +kernel
  have ho := struct_object J.ikev2PrfFields IKEv2Prf.toP IKEv2Prf.ofP (fun s => by cases s; rfl) (fun _ => rfl) ["name", "algorithm"] rfl
  exact ⟨ho,
    (struct_member (F := J.ikev2PrfFields) (toP := IKEv2Prf.toP) (ofP := IKEv2Prf.ofP) (.skip .here) hd (fun _ => rfl) (fun _ _ => rfl)),
    (struct_member (F := J.ikev2PrfFields) (toP := IKEv2Prf.toP) (ofP := IKEv2Prf.ofP) (.skip (.there .here)) hd (fun _ => rfl) (fun _ _ => rfl))⟩

/-- cyclonedx.go:537-544 -/
theorem json_members_ikev2TransformTypes :
    Object J.ikev2TransformTypes ["encr", "prf", "integ", "ke", "esn", "auth"] ∧
    Member J.ikev2TransformTypes "encr" false (JCodec.pslice J.ikev2Enc) (fun x => x.encr)
      (fun (x : IKEv2TransformTypes) v => { x with encr := v }) ∧
    Member J.ikev2TransformTypes "prf" false (JCodec.pslice J.ikev2Prf) (fun x => x.prf)
      (fun (x : IKEv2TransformTypes) v => { x with prf := v }) ∧
    Member J.ikev2TransformTypes "integ" false (JCodec.pslice J.ikev2Integ) (fun x => x.integ)
      (fun (x : IKEv2TransformTypes) v => { x with integ := v }) ∧
    Member J.ikev2TransformTypes "ke" false (JCodec.pslice J.ikev2Ke) (fun x => x.ke)
      (fun (x : IKEv2TransformTypes) v => { x with ke := v }) ∧
    Member J.ikev2TransformTypes "esn" true JCodec.bool (fun x => x.esn)
      (fun (x : IKEv2TransformTypes) v => { x with esn := v }) ∧
    Member J.ikev2TransformTypes "auth" false (JCodec.pslice J.ikev2Auth) (fun x => x.auth)
      (fun (x : IKEv2TransformTypes) v => { x with auth := v }) := by
  have hd : JFields.NamesDistinct J.ikev2TransformTypesFields :=
    show (List.map Json.foldKey ["encr", "prf", "integ", "ke", "esn", "auth"]).Nodup by decide +kernel
  have ho := struct_object J.ikev2TransformTypesFields IKEv2TransformTypes.toP IKEv2TransformTypes.ofP (fun s => by cases s; rfl) (fun _ => rfl) ["encr", "prf", "integ", "ke", "esn", "auth"] rfl
  exact ⟨ho,
    (struct_member (F := J.ikev2TransformTypesFields) (toP := IKEv2TransformTypes.toP) (ofP := IKEv2TransformTypes.ofP) .here hd (fun _ => rfl) (fun _ _ => rfl)),
    (struct_member (F := J.ikev2TransformTypesFields) (toP := IKEv2TransformTypes.toP) (ofP := IKEv2TransformTypes.ofP) (.there .here) hd (fun _ => rfl) (fun _ _ => rfl)),
    (struct_member (F := J.ikev2TransformTypesFields) (toP := IKEv2TransformTypes.toP) (ofP := IKEv2TransformTypes.ofP) (.there (.there .here)) hd (fun _ => rfl) (fun _ _ => rfl)),
    (struct_member (F := J.ikev2TransformTypesFields) (toP := IKEv2TransformTypes.toP) (ofP := IKEv2TransformTypes.ofP) (.there (.there (.there .here))) hd (fun _ => rfl) (fun _ _ => rfl)),
    (struct_member (F := J.ikev2TransformTypesFields) (toP := IKEv2TransformTypes.toP) (ofP := IKEv2TransformTypes.ofP) (.there (.there (.there (.there .here)))) hd (fun _ => rfl) (fun _ _ => rfl)),
    (struct_member (F := J.ikev2TransformTypesFields) (toP := IKEv2TransformTypes.toP) (ofP := IKEv2TransformTypes.ofP) (.there (.there (.there (.there (.there .here))))) hd (fun _ => rfl) (fun _ _ => rfl))⟩

/-- cyclonedx.go:509-516 -/
theorem json_members_cryptoProtocolProperties :
    Object J.cryptoProtocolProperties ["type", "version", "cipherSuites", "ikev2TransformTypes", "cryptoRefArray", "relatedCryptographicAssets"] ∧
    Member J.cryptoProtocolProperties "type" false JCodec.string (fun x => x.type)
      (fun (x : CryptoProtocolProperties) v => { x with type := v }) ∧
    Member J.cryptoProtocolProperties "version" false JCodec.string (fun x => x.version)
      (fun (x : CryptoProtocolProperties) v => { x with version := v }) ∧
    Member J.cryptoProtocolProperties "cipherSuites" false (JCodec.pslice J.cipherSuite) (fun x => x.cipherSuites)
      (fun (x : CryptoProtocolProperties) v => { x with cipherSuites := v }) ∧
    Member J.cryptoProtocolProperties "ikev2TransformTypes" false (JCodec.option J.ikev2TransformTypes) (fun x => x.ikev2TransformTypes)
      (fun (x : CryptoProtocolProperties) v => { x with ikev2TransformTypes := v }) ∧
    Member J.cryptoProtocolProperties "cryptoRefArray" false (JCodec.pslice J.bomReference) (fun x => x.cryptoRefArray)
      (fun (x : CryptoProtocolProperties) v => { x with cryptoRefArray := v }) ∧
    Member J.cryptoProtocolProperties "relatedCryptographicAssets" false (JCodec.pslice J.relatedCryptographicAsset) (fun x => x.relatedCryptographicAssets)
      (fun (x : CryptoProtocolProperties) v => { x with relatedCryptographicAssets := v }) := by
  have hd : JFields.NamesDistinct J.cryptoProtocolPropertiesFields :=
    show (List.map Json.foldKey ["type", "version", "cipherSuites", "ikev2TransformTypes", "cryptoRefArray", "relatedCryptographicAssets"]).Nodup by decide +kernel
  have ho := struct_object J.cryptoProtocolPropertiesFields CryptoProtocolProperties.toP CryptoProtocolProperties.ofP (fun s => by cases s; rfl) (fun _ => rfl) ["type", "version", "cipherSuites", "ikev2TransformTypes", "cryptoRefArray", "relatedCryptographicAssets"] rfl
  exact ⟨ho,
    (struct_member (F := J.cryptoProtocolPropertiesFields) (toP := CryptoProtocolProperties.toP) (ofP := CryptoProtocolProperties.ofP) .here hd (fun _ => rfl) (fun _ _ => rfl)),
    (struct_member (F := J.cryptoProtocolPropertiesFields) (toP := CryptoProtocolProperties.toP) (ofP := CryptoProtocolProperties.ofP) (.there .here) hd (fun _ => rfl) (fun _ _ => rfl)),
    (struct_member (F := J.cryptoProtocolPropertiesFields) (toP := CryptoProtocolProperties.toP) (ofP := CryptoProtocolProperties.ofP) (.there (.there .here)) hd (fun _ => rfl) (fun _ _ => rfl)),
    (struct_member (F := J.cryptoProtocolPropertiesFields) (toP := CryptoProtocolProperties.toP) (ofP := CryptoProtocolProperties.ofP) (.there (.there (.there .here))) hd (fun _ => rfl) (fun _ _ => rfl)),
    (struct_member (F := J.cryptoProtocolPropertiesFields) (toP := CryptoProtocolProperties.toP) (ofP := CryptoProtocolProperties.ofP) (.there (.there (.there (.there .here)))) hd (fun _ => rfl) (fun _ _ => rfl)),
    (struct_member (F := J.cryptoProtocolPropertiesFields) (toP := CryptoProtocolProperties.toP) (ofP := CryptoProtocolProperties.ofP) (.there (.there (.there (.there (.there .here))))) hd (fun _ => rfl) (fun _ _ => rfl))⟩

/-- cyclonedx.go:546-549 -/
theorem json_members_securedBy :
    Object J.securedBy ["mechanism", "algorithmRef"] ∧
    Member J.securedBy "mechanism" false JCodec.string (fun x => x.mechanism)
      (fun (x : SecuredBy) v => { x with mechanism := v }) ∧
    Member J.securedBy "algorithmRef" false J.bomReference (fun x => x.algorithmRef)
      (fun (x : SecuredBy) v => { x with algorithmRef := v }) := by
  have hd : JFields.NamesDistinct J.securedByFields :=
    show (List.map Json.foldKey ["mechanism", "algorithmRef"]).Nodup by decide +kernel
  have ho := struct_object J.securedByFields SecuredBy.toP SecuredBy.ofP (fun s => by cases s; rfl) (fun _ => rfl) ["mechanism", "algorithmRef"] rfl
  exact ⟨ho,
    (struct_member (F := J.securedByFields) (toP := SecuredBy.toP) (ofP := SecuredBy.ofP) .here hd (fun _ => rfl) (fun _ _ => rfl)),
    (struct_member (F := J.securedByFields) (toP := SecuredBy.toP) (ofP := SecuredBy.ofP) (.there .here) hd (fun _ => rfl) (fun _ _ => rfl))⟩

/-- cyclonedx.go:1282-1297 -/
theorem json_members_relatedCryptoMaterialProperties :
    Object J.relatedCryptoMaterialProperties ["type", "id", "state", "algorithmRef", "creationDate", "activationDate", "updateDate", "expirationDate", "value", "size", "format", "securedBy", "fingerprint", "relatedCryptographicAssets"] ∧
    Member J.relatedCryptoMaterialProperties "type" false JCodec.string (fun x => x.type)
      (fun (x : RelatedCryptoMaterialProperties) v => { x with type := v }) ∧
    Member J.relatedCryptoMaterialProperties "id" false JCodec.string (fun x => x.id)
      (fun (x : RelatedCryptoMaterialProperties) v => { x with id := v }) ∧
    Member J.relatedCryptoMaterialProperties "state" false JCodec.string (fun x => x.state)
      (fun (x : RelatedCryptoMaterialProperties) v => { x with state := v }) ∧
    Member J.relatedCryptoMaterialProperties "algorithmRef" false J.bomReference (fun x => x.algorithmRef)
      (fun (x : RelatedCryptoMaterialProperties) v => { x with algorithmRef := v }) ∧
    Member J.relatedCryptoMaterialProperties "creationDate" false JCodec.string (fun x => x.creationDate)
      (fun (x : RelatedCryptoMaterialProperties) v => { x with creationDate := v }) ∧
    Member J.relatedCryptoMaterialProperties "activationDate" false JCodec.string (fun x => x.activationDate)
      (fun (x : RelatedCryptoMaterialProperties) v => { x with activationDate := v }) ∧
    Member J.relatedCryptoMaterialProperties "updateDate" false JCodec.string (fun x => x.updateDate)
      (fun (x : RelatedCryptoMaterialProperties) v => { x with updateDate := v }) ∧
    Member J.relatedCryptoMaterialProperties "expirationDate" false JCodec.string (fun x => x.expirationDate)
      (fun (x : RelatedCryptoMaterialProperties) v => { x with expirationDate := v }) ∧
    Member J.relatedCryptoMaterialProperties "value" false JCodec.string (fun x => x.value)
      (fun (x : RelatedCryptoMaterialProperties) v => { x with value := v }) ∧
    Member J.relatedCryptoMaterialProperties "size" false (JCodec.option JCodec.int) (fun x => x.size)
      (fun (x : RelatedCryptoMaterialProperties) v => { x with size := v }) ∧
    Member J.relatedCryptoMaterialProperties "format" false JCodec.string (fun x => x.format)
      (fun (x : RelatedCryptoMaterialProperties) v => { x with format := v }) ∧
    Member J.relatedCryptoMaterialProperties "securedBy" false (JCodec.option J.securedBy) (fun x => x.securedBy)
      (fun (x : RelatedCryptoMaterialProperties) v => { x with securedBy := v }) ∧
    Member J.relatedCryptoMaterialProperties "fingerprint" false (JCodec.option J.hash) (fun x => x.fingerprint)
      (fun (x : RelatedCryptoMaterialProperties) v => { x with fingerprint := v }) ∧
    Member J.relatedCryptoMaterialProperties "relatedCryptographicAssets" false (JCodec.pslice J.relatedCryptographicAsset) (fun x => x.relatedCryptographicAssets)
      (fun (x : RelatedCryptoMaterialProperties) v => { x with relatedCryptographicAssets := v }) := by
  have hd : JFields.NamesDistinct J.relatedCryptoMaterialPropertiesFields :=
    show (List.map Json.foldKey ["type", "id", "state", "algorithmRef", "creationDate", "activationDate", "updateDate", "expirationDate", "value", "size", "format", "securedBy", "fingerprint", "relatedCryptographicAssets"]).Nodup by decide +kernel
  have ho := struct_object J.relatedCryptoMaterialPropertiesFields RelatedCryptoMaterialProperties.toP RelatedCryptoMaterialProperties.ofP (fun s => by cases s; rfl) (fun _ => rfl) ["type", "id", "state", "algorithmRef", "creationDate", "activationDate", "updateDate", "expirationDate", "value", "size", "format", "securedBy", "fingerprint", "relatedCryptographicAssets"] rfl
  exact ⟨ho,
    (struct_member (F := J.relatedCryptoMaterialPropertiesFields) (toP := RelatedCryptoMaterialProperties.toP) (ofP := RelatedCryptoMaterialProperties.ofP) .here hd (fun _ => rfl) (fun _ _ => rfl)),
    (struct_member (F := J.relatedCryptoMaterialPropertiesFields) (toP := RelatedCryptoMaterialProperties.toP) (ofP := RelatedCryptoMaterialProperties.ofP) (.there .here) hd (fun _ => rfl) (fun _ _ => rfl)),
    (struct_member (F := J.relatedCryptoMaterialPropertiesFields) (toP := RelatedCryptoMaterialProperties.toP) (ofP := RelatedCryptoMaterialProperties.ofP) (.there (.there .here)) hd (fun _ => rfl) (fun _ _ => rfl)),
    (struct_member (F := J.relatedCryptoMaterialPropertiesFields) (toP := RelatedCryptoMaterialProperties.toP) (ofP := RelatedCryptoMaterialProperties.ofP) (.there (.there (.there .here))) hd (fun _ => rfl) (fun _ _ => rfl)),
    (struct_member (F := J.relatedCryptoMaterialPropertiesFields) (toP := RelatedCryptoMaterialProperties.toP) (ofP := RelatedCryptoMaterialProperties.ofP) (.there (.there (.there (.there .here)))) hd (fun _ => rfl) (fun _ _ => rfl)),
    (struct_member (F := J.relatedCryptoMaterialPropertiesFields) (toP := RelatedCryptoMaterialProperties.toP) (ofP := RelatedCryptoMaterialProperties.ofP) (.there (.there (.there (.there (.there .here))))) hd (fun _ => rfl) (fun _ _ => rfl)),
    (struct_member (F := J.relatedCryptoMaterialPropertiesFields) (toP := RelatedCryptoMaterialProperties.toP) (ofP := RelatedCryptoMaterialProperties.ofP) (.there (.there (.there (.there (.there (.there .here)))))) hd (fun _ => rfl) (fun _ _ => rfl)),
    (struct_member (F := J.relatedCryptoMaterialPropertiesFields) (toP := RelatedCryptoMaterialProperties.toP) (ofP := RelatedCryptoMaterialProperties.ofP) (.there (.there (.there (.there (.there (.there (.there .here))))))) hd (fun _ => rfl) (fun _ _ => rfl)),
    (struct_member (F := J.relatedCryptoMaterialPropertiesFields) (toP := RelatedCryptoMaterialProperties.toP) (ofP := RelatedCryptoMaterialProperties.ofP) (.there (.there (.there (.there (.there (.there (.there (.there .here)))))))) hd (fun _ => rfl) (fun _ _ => rfl)),
    (struct_member (F := J.relatedCryptoMaterialPropertiesFields) (toP := RelatedCryptoMaterialProperties.toP) (ofP := RelatedCryptoMaterialProperties.ofP) (.there (.there (.there (.there (.there (.there (.there (.there (.there .here))))))))) hd (fun _ => rfl) (fun _ _ => rfl)),
    (struct_member (F := J.relatedCryptoMaterialPropertiesFields) (toP := RelatedCryptoMaterialProperties.toP) (ofP := RelatedCryptoMaterialProperties.ofP) (.there (.there (.there (.there (.there (.there (.there (.there (.there (.there .here)))))))))) hd (fun _ => rfl) (fun _ _ => rfl)),
    (struct_member (F := J.relatedCryptoMaterialPropertiesFields) (toP := RelatedCryptoMaterialProperties.toP) (ofP := RelatedCryptoMaterialProperties.ofP) (.there (.there (.there (.there (.there (.there (.there (.there (.there (.there (.there .here))))))))))) hd (fun _ => rfl) (fun _ _ => rfl)),
    (struct_member (F := J.relatedCryptoMaterialPropertiesFields) (toP := RelatedCryptoMaterialProperties.toP) (ofP := RelatedCryptoMaterialProperties.ofP) (.there (.there (.there (.there (.there (.there (.there (.there (.there (.there (.there (.there .here)))))))))))) hd (fun _ => rfl) (fun _ _ => rfl)),
    (struct_member (F := J.relatedCryptoMaterialPropertiesFields) (toP := RelatedCryptoMaterialProperties.toP) (ofP := RelatedCryptoMaterialProperties.ofP) (.there (.there (.there (.there (.there (.there (.there (.there (.there (.there (.there (.there (.there .here))))))))))))) hd (fun _ => rfl) (fun _ _ => rfl))⟩

/-- cyclonedx.go:500-507 -/
theorem json_members_cryptoProperties :
    Object J.cryptoProperties ["assetType", "algorithmProperties", "certificateProperties", "relatedCryptoMaterialProperties", "protocolProperties", "oid"] ∧
    Member J.cryptoProperties "assetType" true JCodec.string (fun x => x.assetType)
      (fun (x : CryptoProperties) v => { x with assetType := v }) ∧
    Member J.cryptoProperties "algorithmProperties" false (JCodec.option J.cryptoAlgorithmProperties) (fun x => x.algorithmProperties)
      (fun (x : CryptoProperties) v => { x with algorithmProperties := v }) ∧
    Member J.cryptoProperties "certificateProperties" false (JCodec.option J.certificateProperties) (fun x => x.certificateProperties)
      (fun (x : CryptoProperties) v => { x with certificateProperties := v }) ∧
    Member J.cryptoProperties "relatedCryptoMaterialProperties" false (JCodec.option J.relatedCryptoMaterialProperties) (fun x => x.relatedCryptoMaterialProperties)
      (fun (x : CryptoProperties) v => { x with relatedCryptoMaterialProperties := v }) ∧
    Member J.cryptoProperties "protocolProperties" false (JCodec.option J.cryptoProtocolProperties) (fun x => x.protocolProperties)
      (fun (x : CryptoProperties) v => { x with protocolProperties := v }) ∧
    Member J.cryptoProperties "oid" false JCodec.string (fun x => x.oid)
      (fun (x : CryptoProperties) v => { x with oid := v }) := by
  have hd : JFields.NamesDistinct J.cryptoPropertiesFields :=
    show (List.map Json.foldKey ["assetType", "algorithmProperties", "certificateProperties", "relatedCryptoMaterialProperties", "protocolProperties", "oid"]).Nodup by decide +kernel
  have ho := struct_object J.cryptoPropertiesFields CryptoProperties.toP CryptoProperties.ofP (fun s => by cases s; rfl) (fun _ => rfl) ["assetType", "algorithmProperties", "certificateProperties", "relatedCryptoMaterialProperties", "protocolProperties", "oid"] rfl
  exact ⟨ho,
    (struct_member (F := J.cryptoPropertiesFields) (toP := CryptoProperties.toP) (ofP := CryptoProperties.ofP) .here hd (fun _ => rfl) (fun _ _ => rfl)),
    (struct_member (F := J.cryptoPropertiesFields) (toP := CryptoProperties.toP) (ofP := CryptoProperties.ofP) (.there .here) hd (fun _ => rfl) (fun _ _ => rfl)),
    (struct_member (F := J.cryptoPropertiesFields) (toP := CryptoProperties.toP) (ofP := CryptoProperties.ofP) (.there (.there .here)) hd (fun _ => rfl) (fun _ _ => rfl)),
    (struct_member (F := J.cryptoPropertiesFields) (toP := CryptoProperties.toP) (ofP := CryptoProperties.ofP) (.there (.there (.there .here))) hd (fun _ => rfl) (fun _ _ => rfl)),
    (struct_member (F := J.cryptoPropertiesFields) (toP := CryptoProperties.toP) (ofP := CryptoProperties.ofP) (.there (.there (.there (.there .here)))) hd (fun _ => rfl) (fun _ _ => rfl)),
    (struct_member (F := J.cryptoPropertiesFields) (toP := CryptoProperties.toP) (ofP := CryptoProperties.ofP) (.there (.there (.there (.there (.there .here))))) hd (fun _ => rfl) (fun _ _ => rfl))⟩

/-- cyclonedx.go:161-169 -/
theorem json_members_callstackFrame :
    Object J.callstackFrame ["package", "module", "function", "parameters", "line", "column", "fullFilename"] ∧
    Member J.callstackFrame "package" false JCodec.string (fun x => x.package)
      (fun (x : CallstackFrame) v => { x with package := v }) ∧
    Member J.callstackFrame "module" false JCodec.string (fun x => x.module)
      (fun (x : CallstackFrame) v => { x with module := v }) ∧
    Member J.callstackFrame "function" false JCodec.string (fun x => x.function)
      (fun (x : CallstackFrame) v => { x with function := v }) ∧
    Member J.callstackFrame "parameters" false (JCodec.pslice JCodec.string) (fun x => x.parameters)
      (fun (x : CallstackFrame) v => { x with parameters := v }) ∧
    Member J.callstackFrame "line" false (JCodec.option JCodec.int) (fun x => x.line)
      (fun (x : CallstackFrame) v => { x with line := v }) ∧
    Member J.callstackFrame "column" false (JCodec.option JCodec.int) (fun x => x.column)
      (fun (x : CallstackFrame) v => { x with column := v }) ∧
    Member J.callstackFrame "fullFilename" false JCodec.string (fun x => x.fullFilename)
      (fun (x : CallstackFrame) v => { x with fullFilename := v }) := by
  have hd : JFields.NamesDistinct J.callstackFrameFields :=
    show (List.map Json.foldKey ["package", "module", "function", "parameters", "line", "column", "fullFilename"]).Nodup by decide +kernel
  have ho := struct_object J.callstackFrameFields CallstackFrame.toP CallstackFrame.ofP (fun s => by cases s; rfl) (fun _ => rfl) ["package", "module", "function", "parameters", "line", "column", "fullFilename"] rfl
  exact ⟨ho,
    (struct_member (F := J.callstackFrameFields) (toP := CallstackFrame.toP) (ofP := CallstackFrame.ofP) .here hd (fun _ => rfl) (fun _ _ => rfl)),
    (struct_member (F := J.callstackFrameFields) (toP := CallstackFrame.toP) (ofP := CallstackFrame.ofP) (.there .here) hd (fun _ => rfl) (fun _ _ => rfl)),
    (struct_member (F := J.callstackFrameFields) (toP := CallstackFrame.toP) (ofP := CallstackFrame.ofP) (.there (.there .here)) hd (fun _ => rfl) (fun _ _ => rfl)),
    (struct_member (F := J.callstackFrameFields) (toP := CallstackFrame.toP) (ofP := CallstackFrame.ofP) (.there (.there (.there .here))) hd (fun _ => rfl) (fun _ _ => rfl)),
    (struct_member (F := J.callstackFrameFields) (toP := CallstackFrame.toP) (ofP := CallstackFrame.ofP) (.there (.there (.there (.there .here)))) hd (fun _ => rfl) (fun _ _ => rfl)),
    (struct_member (F := J.callstackFrameFields) (toP := CallstackFrame.toP) (ofP := CallstackFrame.ofP) (.there (.there (.there (.there (.there .here))))) hd (fun _ => rfl) (fun _ _ => rfl)),
    (struct_member (F := J.callstackFrameFields) (toP := CallstackFrame.toP) (ofP := CallstackFrame.ofP) (.there (.there (.there (.there (.there (.there .here)))))) hd (fun _ => rfl) (fun _ _ => rfl))⟩

/-- cyclonedx.go:157-159 -/
theorem json_members_callstack :
    Object J.callstack ["frames"] ∧
    Member J.callstack "frames" false (JCodec.pslice J.callstackFrame) (fun x => x.frames)
      (fun (x : Callstack) v => { x with frames := v }) := by
  have hd : JFields.NamesDistinct J.callstackFields :=
    show (List.map Json.foldKey ["frames"]).Nodup by decide +kernel
  have ho := struct_object J.callstackFields Callstack.toP Callstack.ofP (fun s => by cases s; rfl) (fun _ => rfl) ["frames"] rfl
  exact ⟨ho,
    (struct_member (F := J.callstackFields) (toP := Callstack.toP) (ofP := Callstack.ofP) .here hd (fun _ => rfl) (fun _ _ => rfl))⟩

/-- cyclonedx.go:345-347 -/
theorem json_members_copyright :
    Object J.copyright ["text"] ∧
    Member J.copyright "text" true JCodec.string (fun x => x.text)
      (fun (x : Copyright) v => { x with text := v }) := by
  have hd : JFields.NamesDistinct J.copyrightFields :=
    show (List.map Json.foldKey ["text"]).Nodup by decide +kernel
  have ho := struct_object J.copyrightFields Copyright.toP Copyright.ofP (fun s => by cases s; rfl) (fun _ => rfl) ["text"] rfl
  exact ⟨ho,
    (struct_member (F := J.copyrightFields) (toP := Copyright.toP) (ofP := Copyright.ofP) .here hd (fun _ => rfl) (fun _ _ => rfl))⟩

/-- cyclonedx.go:710-714 -/
theorem json_members_evidenceIdentityMethod :
    Object J.evidenceIdentityMethod ["technique", "confidence", "value"] ∧
    Member J.evidenceIdentityMethod "technique" false JCodec.string (fun x => x.technique)
      (fun (x : EvidenceIdentityMethod) v => { x with technique := v }) ∧
    Member J.evidenceIdentityMethod "confidence" false (JCodec.option JCodec.f32) (fun x => x.confidence)
      (fun (x : EvidenceIdentityMethod) v => { x with confidence := v }) ∧
    Member J.evidenceIdentityMethod "value" false JCodec.string (fun x => x.value)
      (fun (x : EvidenceIdentityMethod) v => { x with value := v }) := by
  have hd : JFields.NamesDistinct J.evidenceIdentityMethodFields :=
    show (List.map Json.foldKey ["technique", "confidence", "value"]).Nodup by decide +kernel
  have ho := struct_object J.evidenceIdentityMethodFields EvidenceIdentityMethod.toP EvidenceIdentityMethod.ofP (fun s => by cases s; rfl) (fun _ => rfl) ["technique", "confidence", "value"] rfl
  exact ⟨ho,
    (struct_member (F := J.evidenceIdentityMethodFields) (toP := EvidenceIdentityMethod.toP) (ofP := EvidenceIdentityMethod.ofP) .here hd (fun _ => rfl) (fun _ _ => rfl)),
    (struct_member (F := J.evidenceIdentityMethodFields) (toP := EvidenceIdentityMethod.toP) (ofP := EvidenceIdentityMethod.ofP) (.there .here) hd (fun _ => rfl) (fun _ _ => rfl)),
    (struct_member (F := J.evidenceIdentityMethodFields) (toP := EvidenceIdentityMethod.toP) (ofP := EvidenceIdentityMethod.ofP) (.there (.there .here)) hd (fun _ => rfl) (fun _ _ => rfl))⟩

/-- cyclonedx.go:688-694 -/
theorem json_members_evidenceIdentity :
    Object J.evidenceIdentity ["field", "confidence", "concludedValue", "methods", "tools"] ∧
    Member J.evidenceIdentity "field" false JCodec.string (fun x => x.field)
      (fun (x : EvidenceIdentity) v => { x with field := v }) ∧
    Member J.evidenceIdentity "confidence" false (JCodec.option JCodec.f32) (fun x => x.confidence)
      (fun (x : EvidenceIdentity) v => { x with confidence := v }) ∧
    Member J.evidenceIdentity "concludedValue" false JCodec.string (fun x => x.concludedValue)
      (fun (x : EvidenceIdentity) v => { x with concludedValue := v }) ∧
    Member J.evidenceIdentity "methods" false (JCodec.pslice J.evidenceIdentityMethod) (fun x => x.methods)
      (fun (x : EvidenceIdentity) v => { x with methods := v }) ∧
    Member J.evidenceIdentity "tools" false (JCodec.pslice J.bomReference) (fun x => x.tools)
      (fun (x : EvidenceIdentity) v => { x with tools := v }) := by
  have hd : JFields.NamesDistinct J.evidenceIdentityFields :=
    show (List.map Json.foldKey ["field", "confidence", "concludedValue", "methods", "tools"]).Nodup by decide +kernel
  have ho := struct_object J.evidenceIdentityFields EvidenceIdentity.toP EvidenceIdentity.ofP (fun s => by cases s; rfl) (fun _ => rfl) ["field", "confidence", "concludedValue", "methods", "tools"] rfl
  exact ⟨ho,
    (struct_member (F := J.evidenceIdentityFields) (toP := EvidenceIdentity.toP) (ofP := EvidenceIdentity.ofP) .here hd (fun _ => rfl) (fun _ _ => rfl)),
    (struct_member (F := J.evidenceIdentityFields) (toP := EvidenceIdentity.toP) (ofP := EvidenceIdentity.ofP) (.there .here) hd (fun _ => rfl) (fun _ _ => rfl)),
    (struct_member (F := J.evidenceIdentityFields) (toP := EvidenceIdentity.toP) (ofP := EvidenceIdentity.ofP) (.there (.there .here)) hd (fun _ => rfl) (fun _ _ => rfl)),
    (struct_member (F := J.evidenceIdentityFields) (toP := EvidenceIdentity.toP) (ofP := EvidenceIdentity.ofP) (.there (.there (.there .here))) hd (fun _ => rfl) (fun _ _ => rfl)),
    (struct_member (F := J.evidenceIdentityFields) (toP := EvidenceIdentity.toP) (ofP := EvidenceIdentity.ofP) (.there (.there (.there (.there .here)))) hd (fun _ => rfl) (fun _ _ => rfl))⟩

/-- cyclonedx.go:731-738 -/
theorem json_members_evidenceOccurrence :
    Object J.evidenceOccurrence ["bom-ref", "location", "line", "offset", "symbol", "additionalContext"] ∧
    Member J.evidenceOccurrence "bom-ref" false JCodec.string (fun x => x.bomRef)
      (fun (x : EvidenceOccurrence) v => { x with bomRef := v }) ∧
    Member J.evidenceOccurrence "location" false JCodec.string (fun x => x.location)
      (fun (x : EvidenceOccurrence) v => { x with location := v }) ∧
    Member J.evidenceOccurrence "line" false (JCodec.option JCodec.int) (fun x => x.line)
      (fun (x : EvidenceOccurrence) v => { x with line := v }) ∧
    Member J.evidenceOccurrence "offset" false (JCodec.option JCodec.int) (fun x => x.offset)
      (fun (x : EvidenceOccurrence) v => { x with offset := v }) ∧
    Member J.evidenceOccurrence "symbol" false JCodec.string (fun x => x.symbol)
      (fun (x : EvidenceOccurrence) v => { x with symbol := v }) ∧
    Member J.evidenceOccurrence "additionalContext" false JCodec.string (fun x => x.additionalContext)
      (fun (x : EvidenceOccurrence) v => { x with additionalContext := v }) := by
  have hd : JFields.NamesDistinct J.evidenceOccurrenceFields :=
    show (List.map Json.foldKey ["bom-ref", "location", "line", "offset", "symbol", "additionalContext"]).Nodup by decide +kernel
  have ho := struct_object J.evidenceOccurrenceFields EvidenceOccurrence.toP EvidenceOccurrence.ofP (fun s => by cases s; rfl) (fun _ => rfl) ["bom-ref", "location", "line", "offset", "symbol", "additionalContext"] rfl
  exact ⟨ho,
    (struct_member (F := J.evidenceOccurrenceFields) (toP := EvidenceOccurrence.toP) (ofP := EvidenceOccurrence.ofP) .here hd (fun _ => rfl) (fun _ _ => rfl)),
    (struct_member (F := J.evidenceOccurrenceFields) (toP := EvidenceOccurrence.toP) (ofP := EvidenceOccurrence.ofP) (.there .here) hd (fun _ => rfl) (fun _ _ => rfl)),
    (struct_member (F := J.evidenceOccurrenceFields) (toP := EvidenceOccurrence.toP) (ofP := EvidenceOccurrence.ofP) (.there (.there .here)) hd (fun _ => rfl) (fun _ _ => rfl)),
    (struct_member (F := J.evidenceOccurrenceFields) (toP := EvidenceOccurrence.toP) (ofP := EvidenceOccurrence.ofP) (.there (.there (.there .here))) hd (fun _ => rfl) (fun _ _ => rfl)),
    (struct_member (F := J.evidenceOccurrenceFields) (toP := EvidenceOccurrence.toP) (ofP := EvidenceOccurrence.ofP) (.there (.there (.there (.there .here)))) hd (fun _ => rfl) (fun _ _ => rfl)),
    (struct_member (F := J.evidenceOccurrenceFields) (toP := EvidenceOccurrence.toP) (ofP := EvidenceOccurrence.ofP) (.there (.there (.there (.there (.there .here))))) hd (fun _ => rfl) (fun _ _ => rfl))⟩

/-- cyclonedx.go:1226-1229 -/
theorem json_members_organizationalEntityOrContact :
    Object J.organizationalEntityOrContact ["organization", "individual"] ∧
    Member J.organizationalEntityOrContact "organization" false (JCodec.option J.organizationalEntity) (fun x => x.organization)
      (fun (x : OrganizationalEntityOrContact) v => { x with organization := v }) ∧
    Member J.organizationalEntityOrContact "individual" false (JCodec.option J.organizationalContact) (fun x => x.individual)
      (fun (x : OrganizationalEntityOrContact) v => { x with individual := v }) := by
  have hd : JFields.NamesDistinct J.organizationalEntityOrContactFields :=
    show (List.map Json.foldKey ["organization", "individual"]).Nodup by decide +kernel
  have ho := struct_object J.organizationalEntityOrContactFields OrganizationalEntityOrContact.toP OrganizationalEntityOrContact.ofP (fun s => by cases s; rfl) (fun _ => rfl) ["organization", "individual"] rfl
  exact ⟨ho,
    (struct_member (F := J.organizationalEntityOrContactFields) (toP := OrganizationalEntityOrContact.toP) (ofP := OrganizationalEntityOrContact.ofP) .here hd (fun _ => rfl) (fun _ _ => rfl)),
    (struct_member (F := J.organizationalEntityOrContactFields) (toP := OrganizationalEntityOrContact.toP) (ofP := OrganizationalEntityOrContact.ofP) (.there .here) hd (fun _ => rfl) (fun _ _ => rfl))⟩

/-- cyclonedx.go:995-1004 -/
theorem json_members_licensing :
    Object J.licensing ["altIds", "licensor", "licensee", "purchaser", "purchaseOrder", "licenseTypes", "lastRenewal", "expiration"] ∧
    Member J.licensing "altIds" false (JCodec.pslice JCodec.string) (fun x => x.altIDs)
      (fun (x : Licensing) v => { x with altIDs := v }) ∧
    Member J.licensing "licensor" false (JCodec.option J.organizationalEntityOrContact) (fun x => x.licensor)
      (fun (x : Licensing) v => { x with licensor := v }) ∧
    Member J.licensing "licensee" false (JCodec.option J.organizationalEntityOrContact) (fun x => x.licensee)
      (fun (x : Licensing) v => { x with licensee := v }) ∧
    Member J.licensing "purchaser" false (JCodec.option J.organizationalEntityOrContact) (fun x => x.purchaser)
      (fun (x : Licensing) v => { x with purchaser := v }) ∧
    Member J.licensing "purchaseOrder" false JCodec.string (fun x => x.purchaseOrder)
      (fun (x : Licensing) v => { x with purchaseOrder := v }) ∧
    Member J.licensing "licenseTypes" false (JCodec.pslice JCodec.string) (fun x => x.licenseTypes)
      (fun (x : Licensing) v => { x with licenseTypes := v }) ∧
    Member J.licensing "lastRenewal" false JCodec.string (fun x => x.lastRenewal)
      (fun (x : Licensing) v => { x with lastRenewal := v }) ∧
    Member J.licensing "expiration" false JCodec.string (fun x => x.expiration)
      (fun (x : Licensing) v => { x with expiration := v }) := by
  have hd : JFields.NamesDistinct J.licensingFields :=
    show (List.map Json.foldKey ["altIds", "licensor", "licensee", "purchaser", "purchaseOrder", "licenseTypes", "lastRenewal", "expiration"]).Nodup by decide +kernel
  have ho := struct_object J.licensingFields Licensing.toP Licensing.ofP (fun s => by cases s; rfl) (fun _ => rfl) ["altIds", "licensor", "licensee", "purchaser", "purchaseOrder", "licenseTypes", "lastRenewal", "expiration"] rfl
  exact ⟨ho,
    (struct_member (F := J.licensingFields) (toP := Licensing.toP) (ofP := Licensing.ofP) .here hd (fun _ => rfl) (fun _ _ => rfl)),
    (struct_member (F := J.licensingFields) (toP := Licensing.toP) (ofP := Licensing.ofP) (.there .here) hd (fun _ => rfl) (fun _ _ => rfl)),
    (struct_member (F := J.licensingFields) (toP := Licensing.toP) (ofP := Licensing.ofP) (.there (.there .here)) hd (fun _ => rfl) (fun _ _ => rfl)),
    (struct_member (F := J.licensingFields) (toP := Licensing.toP) (ofP := Licensing.ofP) (.there (.there (.there .here))) hd (fun _ => rfl) (fun _ _ => rfl)),
    (struct_member (F := J.licensingFields) (toP := Licensing.toP) (ofP := Licensing.ofP) (.there (.there (.there (.there .here)))) hd (fun _ => rfl) (fun _ _ => rfl)),
    (struct_member (F := J.licensingFields) (toP := Licensing.toP) (ofP := Licensing.ofP) (.there (.there (.there (.there (.there .here))))) hd (fun _ => rfl) (fun _ _ => rfl)),
    (struct_member (F := J.licensingFields) (toP := Licensing.toP) (ofP := Licensing.ofP) (.there (.there (.there (.there (.there (.there .here)))))) hd (fun _ => rfl) (fun _ _ => rfl)),
    (struct_member (F := J.licensingFields) (toP := Licensing.toP) (ofP := Licensing.ofP) (.there (.there (.there (.there (.there (.there (.there .here))))))) hd (fun _ => rfl) (fun _ _ => rfl))⟩

/-- cyclonedx.go:936-945 -/
theorem json_members_license :
    Object J.license ["bom-ref", "id", "name", "acknowledgement", "text", "url", "licensing", "properties"] ∧
    Member J.license "bom-ref" false JCodec.string (fun x => x.bomRef)
      (fun (x : License) v => { x with bomRef := v }) ∧
    Member J.license "id" false JCodec.string (fun x => x.id)
      (fun (x : License) v => { x with id := v }) ∧
    Member J.license "name" false JCodec.string (fun x => x.name)
      (fun (x : License) v => { x with name := v }) ∧
    Member J.license "acknowledgement" false JCodec.string (fun x => x.acknowledgement)
      (fun (x : License) v => { x with acknowledgement := v }) ∧
    Member J.license "text" false (JCodec.option J.attachedText) (fun x => x.text)
      (fun (x : License) v => { x with text := v }) ∧
    Member J.license "url" false JCodec.string (fun x => x.url)
      (fun (x : License) v => { x with url := v }) ∧
    Member J.license "licensing" false (JCodec.option J.licensing) (fun x => x.licensing)
      (fun (x : License) v => { x with licensing := v }) ∧
    Member J.license "properties" false (JCodec.pslice J.property) (fun x => x.properties)
      (fun (x : License) v => { x with properties := v }) := by
  have hd : JFields.NamesDistinct J.licenseFields :=
    show (List.map Json.foldKey ["bom-ref", "id", "name", "acknowledgement", "text", "url", "licensing", "properties"]).Nodup by decide +kernel
  have ho := struct_object J.licenseFields License.toP License.ofP (fun s => by cases s; rfl) (fun _ => rfl) ["bom-ref", "id", "name", "acknowledgement", "text", "url", "licensing", "properties"] rfl
  have he : ∀ x j, J.license.enc x = some j → J.licenseAlias.enc x = some j := fun x j h => by
    simp only [J.license] at h
    split at h
    · cases h
    · split at h
      · cases h
      · exact h
  exact ⟨ho.congr he (fun _ _ => rfl),
    (struct_member (F := J.licenseFields) (toP := License.toP) (ofP := License.ofP) .here hd (fun _ => rfl) (fun _ _ => rfl)).congr he (fun _ _ => rfl),
    (struct_member (F := J.licenseFields) (toP := License.toP) (ofP := License.ofP) (.there .here) hd (fun _ => rfl) (fun _ _ => rfl)).congr he (fun _ _ => rfl),
    (struct_member (F := J.licenseFields) (toP := License.toP) (ofP := License.ofP) (.there (.there .here)) hd (fun _ => rfl) (fun _ _ => rfl)).congr he (fun _ _ => rfl),
    (struct_member (F := J.licenseFields) (toP := License.toP) (ofP := License.ofP) (.there (.there (.there .here))) hd (fun _ => rfl) (fun _ _ => rfl)).congr he (fun _ _ => rfl),
    (struct_member (F := J.licenseFields) (toP := License.toP) (ofP := License.ofP) (.there (.there (.there (.there .here)))) hd (fun _ => rfl) (fun _ _ => rfl)).congr he (fun _ _ => rfl),
    (struct_member (F := J.licenseFields) (toP := License.toP) (ofP := License.ofP) (.there (.there (.there (.there (.there .here))))) hd (fun _ => rfl) (fun _ _ => rfl)).congr he (fun _ _ => rfl),
    (struct_member (F := J.licenseFields) (toP := License.toP) (ofP := License.ofP) (.there (.there (.there (.there (.there (.there .here)))))) hd (fun _ => rfl) (fun _ _ => rfl)).congr he (fun _ _ => rfl),
    (struct_member (F := J.licenseFields) (toP := License.toP) (ofP := License.ofP) (.there (.there (.there (.there (.there (.there (.there .here))))))) hd (fun _ => rfl) (fun _ _ => rfl)).congr he (fun _ _ => rfl)⟩

/-- cyclonedx.go:967-972 -/
theorem json_members_licenseExpressionDetail :
    Object J.licenseExpressionDetail ["licenseIdentifier", "bom-ref", "text", "url"] ∧
    Member J.licenseExpressionDetail "licenseIdentifier" true JCodec.string (fun x => x.licenseIdentifier)
      (fun (x : LicenseExpressionDetail) v => { x with licenseIdentifier := v }) ∧
    Member J.licenseExpressionDetail "bom-ref" false JCodec.string (fun x => x.bomRef)
      (fun (x : LicenseExpressionDetail) v => { x with bomRef := v }) ∧
    Member J.licenseExpressionDetail "text" false (JCodec.option J.attachedText) (fun x => x.text)
      (fun (x : LicenseExpressionDetail) v => { x with text := v }) ∧
    Member J.licenseExpressionDetail "url" false JCodec.string (fun x => x.url)
      (fun (x : LicenseExpressionDetail) v => { x with url := v }) := by
  have hd : JFields.NamesDistinct J.licenseExpressionDetailFields :=
    show (List.map Json.foldKey ["licenseIdentifier", "bom-ref", "text", "url"]).Nodup by decide +kernel
  have ho := struct_object J.licenseExpressionDetailFields LicenseExpressionDetail.toP LicenseExpressionDetail.ofP (fun s => by cases s; rfl) (fun _ => rfl) ["licenseIdentifier", "bom-ref", "text", "url"] rfl
  exact ⟨ho,
    (struct_member (F := J.licenseExpressionDetailFields) (toP := LicenseExpressionDetail.toP) (ofP := LicenseExpressionDetail.ofP) .here hd (fun _ => rfl) (fun _ _ => rfl)),
    (struct_member (F := J.licenseExpressionDetailFields) (toP := LicenseExpressionDetail.toP) (ofP := LicenseExpressionDetail.ofP) (.there .here) hd (fun _ => rfl) (fun _ _ => rfl)),
    (struct_member (F := J.licenseExpressionDetailFields) (toP := LicenseExpressionDetail.toP) (ofP := LicenseExpressionDetail.ofP) (.there (.there .here)) hd (fun _ => rfl) (fun _ _ => rfl)),
    (struct_member (F := J.licenseExpressionDetailFields) (toP := LicenseExpressionDetail.toP) (ofP := LicenseExpressionDetail.ofP) (.there (.there (.there .here))) hd (fun _ => rfl) (fun _ _ => rfl))⟩

/-- cyclonedx.go:956-964 -/
theorem json_members_licenseChoice :
    Object J.licenseChoice ["license", "expression", "expressionDetails", "acknowledgement", "bom-ref", "licensing", "properties"] ∧
    Member J.licenseChoice "license" false (JCodec.option J.license) (fun x => x.license)
      (fun (x : LicenseChoice) v => { x with license := v }) ∧
    Member J.licenseChoice "expression" false JCodec.string (fun x => x.expression)
      (fun (x : LicenseChoice) v => { x with expression := v }) ∧
    Member J.licenseChoice "expressionDetails" false (JCodec.pslice J.licenseExpressionDetail) (fun x => x.expressionDetails)
      (fun (x : LicenseChoice) v => { x with expressionDetails := v }) ∧
    Member J.licenseChoice "acknowledgement" false (JCodec.option JCodec.string) (fun x => x.acknowledgement)
      (fun (x : LicenseChoice) v => { x with acknowledgement := v }) ∧
    Member J.licenseChoice "bom-ref" false JCodec.string (fun x => x.bomRef)
      (fun (x : LicenseChoice) v => { x with bomRef := v }) ∧
    Member J.licenseChoice "licensing" false (JCodec.option J.licensing) (fun x => x.licensing)
      (fun (x : LicenseChoice) v => { x with licensing := v }) ∧
    Member J.licenseChoice "properties" false (JCodec.pslice J.property) (fun x => x.properties)
      (fun (x : LicenseChoice) v => { x with properties := v }) := by
  have hd : JFields.NamesDistinct J.licenseChoiceFields :=
    show (List.map Json.foldKey ["license", "expression", "expressionDetails", "acknowledgement", "bom-ref", "licensing", "properties"]).Nodup by decide +kernel
  have ho := struct_object J.licenseChoiceFields LicenseChoice.toP LicenseChoice.ofP (fun s => by cases s; rfl) (fun _ => rfl) ["license", "expression", "expressionDetails", "acknowledgement", "bom-ref", "licensing", "properties"] rfl
  exact ⟨ho,
    (struct_member (F := J.licenseChoiceFields) (toP := LicenseChoice.toP) (ofP := LicenseChoice.ofP) .here hd (fun _ => rfl) (fun _ _ => rfl)),
    (struct_member (F := J.licenseChoiceFields) (toP := LicenseChoice.toP) (ofP := LicenseChoice.ofP) (.there .here) hd (fun _ => rfl) (fun _ _ => rfl)),
    (struct_member (F := J.licenseChoiceFields) (toP := LicenseChoice.toP) (ofP := LicenseChoice.ofP) (.there (.there .here)) hd (fun _ => rfl) (fun _ _ => rfl)),
    (struct_member (F := J.licenseChoiceFields) (toP := LicenseChoice.toP) (ofP := LicenseChoice.ofP) (.there (.there (.there .here))) hd (fun _ => rfl) (fun _ _ => rfl)),
    (struct_member (F := J.licenseChoiceFields) (toP := LicenseChoice.toP) (ofP := LicenseChoice.ofP) (.there (.there (.there (.there .here)))) hd (fun _ => rfl) (fun _ _ => rfl)),
    (struct_member (F := J.licenseChoiceFields) (toP := LicenseChoice.toP) (ofP := LicenseChoice.ofP) (.there (.there (.there (.there (.there .here))))) hd (fun _ => rfl) (fun _ _ => rfl)),
    (struct_member (F := J.licenseChoiceFields) (toP := LicenseChoice.toP) (ofP := LicenseChoice.ofP) (.there (.there (.there (.there (.there (.there .here)))))) hd (fun _ => rfl) (fun _ _ => rfl))⟩

/-- cyclonedx.go:672-678 -/
theorem json_members_evidence :
    Object J.evidence ["identity", "occurrences", "callstack", "licenses", "copyright"] ∧
    Member J.evidence "identity" false (JCodec.option J.evidenceIdentityChoice) (fun x => x.identity)
      (fun (x : Evidence) v => { x with identity := v }) ∧
    Member J.evidence "occurrences" false (JCodec.pslice J.evidenceOccurrence) (fun x => x.occurrences)
      (fun (x : Evidence) v => { x with occurrences := v }) ∧
    Member J.evidence "callstack" false (JCodec.option J.callstack) (fun x => x.callstack)
      (fun (x : Evidence) v => { x with callstack := v }) ∧
    Member J.evidence "licenses" false (JCodec.pslice J.licenseChoice) (fun x => x.licenses)
      (fun (x : Evidence) v => { x with licenses := v }) ∧
    Member J.evidence "copyright" false (JCodec.pslice J.copyright) (fun x => x.copyright)
      (fun (x : Evidence) v => { x with copyright := v }) := by
  have hd : JFields.NamesDistinct J.evidenceFields :=
    show (List.map Json.foldKey ["identity", "occurrences", "callstack", "licenses", "copyright"]).Nodup by decide +kernel
  have ho := struct_object J.evidenceFields Evidence.toP Evidence.ofP (fun s => by cases s; rfl) (fun _ => rfl) ["identity", "occurrences", "callstack", "licenses", "copyright"] rfl
  exact ⟨ho,
    (struct_member (F := J.evidenceFields) (toP := Evidence.toP) (ofP := Evidence.ofP) .here hd (fun _ => rfl) (fun _ _ => rfl)),
    (struct_member (F := J.evidenceFields) (toP := Evidence.toP) (ofP := Evidence.ofP) (.there .here) hd (fun _ => rfl) (fun _ _ => rfl)),
    (struct_member (F := J.evidenceFields) (toP := Evidence.toP) (ofP := Evidence.ofP) (.there (.there .here)) hd (fun _ => rfl) (fun _ _ => rfl)),
    (struct_member (F := J.evidenceFields) (toP := Evidence.toP) (ofP := Evidence.ofP) (.there (.there (.there .here))) hd (fun _ => rfl) (fun _ _ => rfl)),
    (struct_member (F := J.evidenceFields) (toP := Evidence.toP) (ofP := Evidence.ofP) (.there (.there (.there (.there .here)))) hd (fun _ => rfl) (fun _ _ => rfl))⟩

/-- cyclonedx.go:740-746 -/
theorem json_members_externalReference :
    Object J.externalReference ["url", "comment", "hashes", "type", "properties"] ∧
    Member J.externalReference "url" true JCodec.string (fun x => x.url)
      (fun (x : ExternalReference) v => { x with url := v }) ∧
    Member J.externalReference "comment" false JCodec.string (fun x => x.comment)
      (fun (x : ExternalReference) v => { x with comment := v }) ∧
    Member J.externalReference "hashes" false (JCodec.pslice J.hash) (fun x => x.hashes)
      (fun (x : ExternalReference) v => { x with hashes := v }) ∧
    Member J.externalReference "type" true JCodec.string (fun x => x.type)
      (fun (x : ExternalReference) v => { x with type := v }) ∧
    Member J.externalReference "properties" false (JCodec.pslice J.property) (fun x => x.properties)
      (fun (x : ExternalReference) v => { x with properties := v }) := by
  have hd : JFields.NamesDistinct J.externalReferenceFields :=
    show (List.map Json.foldKey ["url", "comment", "hashes", "type", "properties"]).Nodup by decide +kernel
  have ho := struct_object J.externalReferenceFields ExternalReference.toP ExternalReference.ofP (fun s => by cases s; rfl) (fun _ => rfl) ["url", "comment", "hashes", "type", "properties"] rfl
  exact ⟨ho,
    (struct_member (F := J.externalReferenceFields) (toP := ExternalReference.toP) (ofP := ExternalReference.ofP) .here hd (fun _ => rfl) (fun _ _ => rfl)),
    (struct_member (F := J.externalReferenceFields) (toP := ExternalReference.toP) (ofP := ExternalReference.ofP) (.there .here) hd (fun _ => rfl) (fun _ _ => rfl)),
    (struct_member (F := J.externalReferenceFields) (toP := ExternalReference.toP) (ofP := ExternalReference.ofP) (.there (.there .here)) hd (fun _ => rfl) (fun _ _ => rfl)),
    (struct_member (F := J.externalReferenceFields) (toP := ExternalReference.toP) (ofP := ExternalReference.ofP) (.there (.there (.there .here))) hd (fun _ => rfl) (fun _ _ => rfl)),
    (struct_member (F := J.externalReferenceFields) (toP := ExternalReference.toP) (ofP := ExternalReference.ofP) (.there (.there (.there (.there .here)))) hd (fun _ => rfl) (fun _ _ => rfl))⟩

/-- cyclonedx.go:925-934 -/
theorem json_members_jsfPublicKey :
    Object J.jsfPublicKey ["kty", "crv", "x", "y", "n", "e"] ∧
    Member J.jsfPublicKey "kty" false JCodec.string (fun x => x.kty)
      (fun (x : JSFPublicKey) v => { x with kty := v }) ∧
    Member J.jsfPublicKey "crv" false JCodec.string (fun x => x.crv)
      (fun (x : JSFPublicKey) v => { x with crv := v }) ∧
    Member J.jsfPublicKey "x" false JCodec.string (fun x => x.x)
      (fun (x : JSFPublicKey) v => { x with x := v }) ∧
    Member J.jsfPublicKey "y" false JCodec.string (fun x => x.y)
      (fun (x : JSFPublicKey) v => { x with y := v }) ∧
    Member J.jsfPublicKey "n" false JCodec.string (fun x => x.n)
      (fun (x : JSFPublicKey) v => { x with n := v }) ∧
    Member J.jsfPublicKey "e" false JCodec.string (fun x => x.e)
      (fun (x : JSFPublicKey) v => { x with e := v }) := by
  have hd : JFields.NamesDistinct J.jsfPublicKeyFields :=
    show (List.map Json.foldKey ["kty", "crv", "x", "y", "n", "e"]).Nodup by decide +kernel
  have ho := struct_object J.jsfPublicKeyFields JSFPublicKey.toP JSFPublicKey.ofP (fun s => by cases s; rfl) (fun _ => rfl) ["kty", "crv", "x", "y", "n", "e"] rfl
  exact ⟨ho,
    (struct_member (F := J.jsfPublicKeyFields) (toP := JSFPublicKey.toP) (ofP := JSFPublicKey.ofP) .here hd (fun _ => rfl) (fun _ _ => rfl)),
    (struct_member (F := J.jsfPublicKeyFields) (toP := JSFPublicKey.toP) (ofP := JSFPublicKey.ofP) (.there .here) hd (fun _ => rfl) (fun _ _ => rfl)),
    (struct_member (F := J.jsfPublicKeyFields) (toP := JSFPublicKey.toP) (ofP := JSFPublicKey.ofP) (.there (.there .here)) hd (fun _ => rfl) (fun _ _ => rfl)),
    (struct_member (F := J.jsfPublicKeyFields) (toP := JSFPublicKey.toP) (ofP := JSFPublicKey.ofP) (.there (.there (.there .here))) hd (fun _ => rfl) (fun _ _ => rfl)),
    (struct_member (F := J.jsfPublicKeyFields) (toP := JSFPublicKey.toP) (ofP := JSFPublicKey.ofP) (.there (.there (.there (.there .here)))) hd (fun _ => rfl) (fun _ _ => rfl)),
    (struct_member (F := J.jsfPublicKeyFields) (toP := JSFPublicKey.toP) (ofP := JSFPublicKey.ofP) (.there (.there (.there (.there (.there .here))))) hd (fun _ => rfl) (fun _ _ => rfl))⟩

/-- cyclonedx.go:916-923 -/
theorem json_members_jsfSigner :
    Object J.jsfSigner ["algorithm", "keyId", "publicKey", "certificatePath", "excludes", "value"] ∧
    Member J.jsfSigner "algorithm" true JCodec.string (fun x => x.algorithm)
      (fun (x : JSFSigner) v => { x with algorithm := v }) ∧
    Member J.jsfSigner "keyId" false JCodec.string (fun x => x.keyID)
      (fun (x : JSFSigner) v => { x with keyID := v }) ∧
    Member J.jsfSigner "publicKey" false J.jsfPublicKey (fun x => x.publicKey)
      (fun (x : JSFSigner) v => { x with publicKey := v }) ∧
    Member J.jsfSigner "certificatePath" false (JCodec.pslice JCodec.string) (fun x => x.certificatePath)
      (fun (x : JSFSigner) v => { x with certificatePath := v }) ∧
    Member J.jsfSigner "excludes" false (JCodec.pslice JCodec.string) (fun x => x.excludes)
      (fun (x : JSFSigner) v => { x with excludes := v }) ∧
    Member J.jsfSigner "value" true JCodec.string (fun x => x.value)
      (fun (x : JSFSigner) v => { x with value := v }) := by
  have hd : JFields.NamesDistinct J.jsfSignerFields :=
    show (List.map Json.foldKey ["algorithm", "keyId", "publicKey", "certificatePath", "excludes", "value"]).Nodup by decide +kernel
  have ho := struct_object J.jsfSignerFields JSFSigner.toP JSFSigner.ofP (fun s => by cases s; rfl) (fun _ => rfl) ["algorithm", "keyId", "publicKey", "certificatePath", "excludes", "value"] rfl
  exact ⟨ho,
    (struct_member (F := J.jsfSignerFields) (toP := JSFSigner.toP) (ofP := JSFSigner.ofP) .here hd (fun _ => rfl) (fun _ _ => rfl)),
    (struct_member (F := J.jsfSignerFields) (toP := JSFSigner.toP) (ofP := JSFSigner.ofP) (.there .here) hd (fun _ => rfl) (fun _ _ => rfl)),
    (struct_member (F := J.jsfSignerFields) (toP := JSFSigner.toP) (ofP := JSFSigner.ofP) (.there (.there .here)) hd (fun _ => rfl) (fun _ _ => rfl)),
    (struct_member (F := J.jsfSignerFields) (toP := JSFSigner.toP) (ofP := JSFSigner.ofP) (.there (.there (.there .here))) hd (fun _ => rfl) (fun _ _ => rfl)),
    (struct_member (F := J.jsfSignerFields) (toP := JSFSigner.toP) (ofP := JSFSigner.ofP) (.there (.there (.there (.there .here)))) hd (fun _ => rfl) (fun _ _ => rfl)),
    (struct_member (F := J.jsfSignerFields) (toP := JSFSigner.toP) (ofP := JSFSigner.ofP) (.there (.there (.there (.there (.there .here))))) hd (fun _ => rfl) (fun _ _ => rfl))⟩

/-- cyclonedx.go:909-914 -/
theorem json_members_jsfSignature :
    Object J.jsfSignature ["signers", "chain"] ∧
    Member J.jsfSignature "signers" false (JCodec.pslice J.jsfSigner) (fun x => x.signers)
      (fun (x : JSFSignature) v => { x with signers := v }) ∧
    Member J.jsfSignature "chain" false (JCodec.pslice J.jsfSigner) (fun x => x.chain)
      (fun (x : JSFSignature) v => { x with chain := v }) := by
  have hd : JFields.NamesDistinct J.jsfSignatureFields :=
    show (List.map Json.foldKey ["signers", "chain"]).Nodup by decide +kernel
  have ho := struct_object J.jsfSignatureFields JSFSignature.toP JSFSignature.ofP (fun s => by cases s; rfl) (fun _ => rfl) ["signers", "chain"] rfl
  exact ⟨ho,
    (struct_member (F := J.jsfSignatureFields) (toP := JSFSignature.toP) (ofP := JSFSignature.ofP) (.skip .here) hd (fun _ => rfl) (fun _ _ => rfl)),
    (struct_member (F := J.jsfSignatureFields) (toP := JSFSignature.toP) (ofP := JSFSignature.ofP) (.skip (.there .here)) hd (fun _ => rfl) (fun _ _ => rfl))⟩

/-- cyclonedx.go:1099-1102 -/
theorem json_members_mlModelCO2Measure :
    Object J.mlModelCO2Measure ["value", "unit"] ∧
    Member J.mlModelCO2Measure "value" true JCodec.f32 (fun x => x.value)
      (fun (x : MLModelCO2Measure) v => { x with value := v }) ∧
    Member J.mlModelCO2Measure "unit" true JCodec.string (fun x => x.unit)
      (fun (x : MLModelCO2Measure) v => { x with unit := v }) := by
  have hd : JFields.NamesDistinct J.mlModelCO2MeasureFields :=
    show (List.map Json.foldKey ["value", "unit"]).Nodup by decide +kernel
  have ho := struct_object J.mlModelCO2MeasureFields MLModelCO2Measure.toP MLModelCO2Measure.ofP (fun s => by cases s; rfl) (fun _ => rfl) ["value", "unit"] rfl
  exact ⟨ho,
    (struct_member (F := J.mlModelCO2MeasureFields) (toP := MLModelCO2Measure.toP) (ofP := MLModelCO2Measure.ofP) .here hd (fun _ => rfl) (fun _ _ => rfl)),
    (struct_member (F := J.mlModelCO2MeasureFields) (toP := MLModelCO2Measure.toP) (ofP := MLModelCO2Measure.ofP) (.there .here) hd (fun _ => rfl) (fun _ _ => rfl))⟩

/-- cyclonedx.go:1131-1134 -/
theorem json_members_mlModelEnergyMeasure :
    Object J.mlModelEnergyMeasure ["value", "unit"] ∧
    Member J.mlModelEnergyMeasure "value" true JCodec.f32 (fun x => x.value)
      (fun (x : MLModelEnergyMeasure) v => { x with value := v }) ∧
    Member J.mlModelEnergyMeasure "unit" true JCodec.string (fun x => x.unit)
      (fun (x : MLModelEnergyMeasure) v => { x with unit := v }) := by
  have hd : JFields.NamesDistinct J.mlModelEnergyMeasureFields :=
    show (List.map Json.foldKey ["value", "unit"]).Nodup by decide +kernel
  have ho := struct_object J.mlModelEnergyMeasureFields MLModelEnergyMeasure.toP MLModelEnergyMeasure.ofP (fun s => by cases s; rfl) (fun _ => rfl) ["value", "unit"] rfl
  exact ⟨ho,
    (struct_member (F := J.mlModelEnergyMeasureFields) (toP := MLModelEnergyMeasure.toP) (ofP := MLModelEnergyMeasure.ofP) .here hd (fun _ => rfl) (fun _ _ => rfl)),
    (struct_member (F := J.mlModelEnergyMeasureFields) (toP := MLModelEnergyMeasure.toP) (ofP := MLModelEnergyMeasure.ofP) (.there .here) hd (fun _ => rfl) (fun _ _ => rfl))⟩

/-- cyclonedx.go:1136-1143 -/
theorem json_members_mlModelEnergyProvider :
    Object J.mlModelEnergyProvider ["bom-ref", "description", "organization", "energySource", "energyProvided", "externalReferences"] ∧
    Member J.mlModelEnergyProvider "bom-ref" false JCodec.string (fun x => x.bomRef)
      (fun (x : MLModelEnergyProvider) v => { x with bomRef := v }) ∧
    Member J.mlModelEnergyProvider "description" false JCodec.string (fun x => x.description)
      (fun (x : MLModelEnergyProvider) v => { x with description := v }) ∧
    Member J.mlModelEnergyProvider "organization" true (JCodec.option J.organizationalEntity) (fun x => x.organization)
      (fun (x : MLModelEnergyProvider) v => { x with organization := v }) ∧
    Member J.mlModelEnergyProvider "energySource" true JCodec.string (fun x => x.energySource)
      (fun (x : MLModelEnergyProvider) v => { x with energySource := v }) ∧
    Member J.mlModelEnergyProvider "energyProvided" true (JCodec.option J.mlModelEnergyMeasure) (fun x => x.energyProvided)
      (fun (x : MLModelEnergyProvider) v => { x with energyProvided := v }) ∧
    Member J.mlModelEnergyProvider "externalReferences" false (JCodec.pslice J.externalReference) (fun x => x.externalReferences)
      (fun (x : MLModelEnergyProvider) v => { x with externalReferences := v }) := by
  have hd : JFields.NamesDistinct J.mlModelEnergyProviderFields :=
    show (List.map Json.foldKey ["bom-ref", "description", "organization", "energySource", "energyProvided", "externalReferences"]).Nodup by decide +kernel
  have ho := struct_object J.mlModelEnergyProviderFields MLModelEnergyProvider.toP MLModelEnergyProvider.ofP (fun s => by cases s; rfl) (fun _ => rfl) ["bom-ref", "description", "organization", "energySource", "energyProvided", "externalReferences"] rfl
  exact ⟨ho,
    (struct_member (F := J.mlModelEnergyProviderFields) (toP := MLModelEnergyProvider.toP) (ofP := MLModelEnergyProvider.ofP) .here hd (fun _ => rfl) (fun _ _ => rfl)),
    (struct_member (F := J.mlModelEnergyProviderFields) (toP := MLModelEnergyProvider.toP) (ofP := MLModelEnergyProvider.ofP) (.there .here) hd (fun _ => rfl) (fun _ _ => rfl)),
    (struct_member (F := J.mlModelEnergyProviderFields) (toP := MLModelEnergyProvider.toP) (ofP := MLModelEnergyProvider.ofP) (.there (.there .here)) hd (fun _ => rfl) (fun _ _ => rfl)),
    (struct_member (F := J.mlModelEnergyProviderFields) (toP := MLModelEnergyProvider.toP) (ofP := MLModelEnergyProvider.ofP) (.there (.there (.there .here))) hd (fun _ => rfl) (fun _ _ => rfl)),
    (struct_member (F := J.mlModelEnergyProviderFields) (toP := MLModelEnergyProvider.toP) (ofP := MLModelEnergyProvider.ofP) (.there (.there (.there (.there .here)))) hd (fun _ => rfl) (fun _ _ => rfl)),
    (struct_member (F := J.mlModelEnergyProviderFields) (toP := MLModelEnergyProvider.toP) (ofP := MLModelEnergyProvider.ofP) (.there (.there (.there (.there (.there .here))))) hd (fun _ => rfl) (fun _ _ => rfl))⟩

/-- cyclonedx.go:1108-1115 -/
theorem json_members_mlModelEnergyConsumption :
    Object J.mlModelEnergyConsumption ["activity", "energyProviders", "activityEnergyCost", "co2CostEquivalent", "co2CostOffset", "properties"] ∧
    Member J.mlModelEnergyConsumption "activity" true JCodec.string (fun x => x.activity)
      (fun (x : MLModelEnergyConsumption) v => { x with activity := v }) ∧
    Member J.mlModelEnergyConsumption "energyProviders" true (JCodec.pslice J.mlModelEnergyProvider) (fun x => x.energyProviders)
      (fun (x : MLModelEnergyConsumption) v => { x with energyProviders := v }) ∧
    Member J.mlModelEnergyConsumption "activityEnergyCost" true J.mlModelEnergyMeasure (fun x => x.activityEnergyCost)
      (fun (x : MLModelEnergyConsumption) v => { x with activityEnergyCost := v }) ∧
    Member J.mlModelEnergyConsumption "co2CostEquivalent" false (JCodec.option J.mlModelCO2Measure) (fun x => x.co2CostEquivalent)
      (fun (x : MLModelEnergyConsumption) v => { x with co2CostEquivalent := v }) ∧
    Member J.mlModelEnergyConsumption "co2CostOffset" false (JCodec.option J.mlModelCO2Measure) (fun x => x.co2CostOffset)
      (fun (x : MLModelEnergyConsumption) v => { x with co2CostOffset := v }) ∧
    Member J.mlModelEnergyConsumption "properties" false (JCodec.pslice J.property) (fun x => x.properties)
      (fun (x : MLModelEnergyConsumption) v => { x with properties := v }) := by
  have hd : JFields.NamesDistinct J.mlModelEnergyConsumptionFields :=
    show (List.map Json.foldKey ["activity", "energyProviders", "activityEnergyCost", "co2CostEquivalent", "co2CostOffset", "properties"]).Nodup by decide +kernel
  have ho := struct_object J.mlModelEnergyConsumptionFields MLModelEnergyConsumption.toP MLModelEnergyConsumption.ofP (fun s => by cases s; rfl) (fun _ => rfl) ["activity", "energyProviders", "activityEnergyCost", "co2CostEquivalent", "co2CostOffset", "properties"] rfl
  exact ⟨ho,
    (struct_member (F := J.mlModelEnergyConsumptionFields) (toP := MLModelEnergyConsumption.toP) (ofP := MLModelEnergyConsumption.ofP) .here hd (fun _ => rfl) (fun _ _ => rfl)),
    (struct_member (F := J.mlModelEnergyConsumptionFields) (toP := MLModelEnergyConsumption.toP) (ofP := MLModelEnergyConsumption.ofP) (.there .here) hd (fun _ => rfl) (fun _ _ => rfl)),
    (struct_member (F := J.mlModelEnergyConsumptionFields) (toP := MLModelEnergyConsumption.toP) (ofP := MLModelEnergyConsumption.ofP) (.there (.there .here)) hd (fun _ => rfl) (fun _ _ => rfl)),
    (struct_member (F := J.mlModelEnergyConsumptionFields) (toP := MLModelEnergyConsumption.toP) (ofP := MLModelEnergyConsumption.ofP) (.there (.there (.there .here))) hd (fun _ => rfl) (fun _ _ => rfl)),
    (struct_member (F := J.mlModelEnergyConsumptionFields) (toP := MLModelEnergyConsumption.toP) (ofP := MLModelEnergyConsumption.ofP) (.there (.there (.there (.there .here)))) hd (fun _ => rfl) (fun _ _ => rfl)),
    (struct_member (F := J.mlModelEnergyConsumptionFields) (toP := MLModelEnergyConsumption.toP) (ofP := MLModelEnergyConsumption.ofP) (.there (.there (.there (.there (.there .here))))) hd (fun _ => rfl) (fun _ _ => rfl))⟩

/-- cyclonedx.go:1082-1085 -/
theorem json_members_mlModelCardEnvironmentalConsiderations :
    Object J.mlModelCardEnvironmentalConsiderations ["energyConsumptions", "properties"] ∧
    Member J.mlModelCardEnvironmentalConsiderations "energyConsumptions" false (JCodec.pslice J.mlModelEnergyConsumption) (fun x => x.energyConsumptions)
      (fun (x : MLModelCardEnvironmentalConsiderations) v => { x with energyConsumptions := v }) ∧
    Member J.mlModelCardEnvironmentalConsiderations "properties" false (JCodec.pslice J.property) (fun x => x.properties)
      (fun (x : MLModelCardEnvironmentalConsiderations) v => { x with properties := v }) := by
  have hd : JFields.NamesDistinct J.mlModelCardEnvironmentalConsiderationsFields :=
    show (List.map Json.foldKey ["energyConsumptions", "properties"]).Nodup by decide +kernel
  have ho := struct_object J.mlModelCardEnvironmentalConsiderationsFields MLModelCardEnvironmentalConsiderations.toP MLModelCardEnvironmentalConsiderations.ofP (fun s => by cases s; rfl) (fun _ => rfl) ["energyConsumptions", "properties"] rfl
  exact ⟨ho,
    (struct_member (F := J.mlModelCardEnvironmentalConsiderationsFields) (toP := MLModelCardEnvironmentalConsiderations.toP) (ofP := MLModelCardEnvironmentalConsiderations.ofP) .here hd (fun _ => rfl) (fun _ _ => rfl)),
    (struct_member (F := J.mlModelCardEnvironmentalConsiderationsFields) (toP := MLModelCardEnvironmentalConsiderations.toP) (ofP := MLModelCardEnvironmentalConsiderations.ofP) (.there .here) hd (fun _ => rfl) (fun _ _ => rfl))⟩

/-- cyclonedx.go:1087-1090 -/
theorem json_members_mlModelCardEthicalConsideration :
    Object J.mlModelCardEthicalConsideration ["name", "mitigationStrategy"] ∧
    Member J.mlModelCardEthicalConsideration "name" false JCodec.string (fun x => x.name)
      (fun (x : MLModelCardEthicalConsideration) v => { x with name := v }) ∧
    Member J.mlModelCardEthicalConsideration "mitigationStrategy" false JCodec.string (fun x => x.mitigationStrategy)
      (fun (x : MLModelCardEthicalConsideration) v => { x with mitigationStrategy := v }) := by
  have hd : JFields.NamesDistinct J.mlModelCardEthicalConsiderationFields :=
    show (List.map Json.foldKey ["name", "mitigationStrategy"]).Nodup by decide +kernel
  have ho := struct_object J.mlModelCardEthicalConsiderationFields MLModelCardEthicalConsideration.toP MLModelCardEthicalConsideration.ofP (fun s => by cases s; rfl) (fun _ => rfl) ["name", "mitigationStrategy"] rfl
  exact ⟨ho,
    (struct_member (F := J.mlModelCardEthicalConsiderationFields) (toP := MLModelCardEthicalConsideration.toP) (ofP := MLModelCardEthicalConsideration.ofP) .here hd (fun _ => rfl) (fun _ _ => rfl)),
    (struct_member (F := J.mlModelCardEthicalConsiderationFields) (toP := MLModelCardEthicalConsideration.toP) (ofP := MLModelCardEthicalConsideration.ofP) (.there .here) hd (fun _ => rfl) (fun _ _ => rfl))⟩

/-- cyclonedx.go:1092-1097 -/
theorem json_members_mlModelCardFairnessAssessment :
    Object J.mlModelCardFairnessAssessment ["groupAtRisk", "benefits", "harms", "mitigationStrategy"] ∧
    Member J.mlModelCardFairnessAssessment "groupAtRisk" false JCodec.string (fun x => x.groupAtRisk)
      (fun (x : MLModelCardFairnessAssessment) v => { x with groupAtRisk := v }) ∧
    Member J.mlModelCardFairnessAssessment "benefits" false JCodec.string (fun x => x.benefits)
      (fun (x : MLModelCardFairnessAssessment) v => { x with benefits := v }) ∧
    Member J.mlModelCardFairnessAssessment "harms" false JCodec.string (fun x => x.harms)
      (fun (x : MLModelCardFairnessAssessment) v => { x with harms := v }) ∧
    Member J.mlModelCardFairnessAssessment "mitigationStrategy" false JCodec.string (fun x => x.mitigationStrategy)
      (fun (x : MLModelCardFairnessAssessment) v => { x with mitigationStrategy := v }) := by
  have hd : JFields.NamesDistinct J.mlModelCardFairnessAssessmentFields :=
    show (List.map Json.foldKey ["groupAtRisk", "benefits", "harms", "mitigationStrategy"]).Nodup by decide +kernel
  have ho := struct_object J.mlModelCardFairnessAssessmentFields MLModelCardFairnessAssessment.toP MLModelCardFairnessAssessment.ofP (fun s => by cases s; rfl) (fun _ => rfl) ["groupAtRisk", "benefits", "harms", "mitigationStrategy"] rfl
  exact ⟨ho,
    (struct_member (F := J.mlModelCardFairnessAssessmentFields) (toP := MLModelCardFairnessAssessment.toP) (ofP := MLModelCardFairnessAssessment.ofP) .here hd (fun _ => rfl) (fun _ _ => rfl)),
    (struct_member (F := J.mlModelCardFairnessAssessmentFields) (toP := MLModelCardFairnessAssessment.toP) (ofP := MLModelCardFairnessAssessment.ofP) (.there .here) hd (fun _ => rfl) (fun _ _ => rfl)),
    (struct_member (F := J.mlModelCardFairnessAssessmentFields) (toP := MLModelCardFairnessAssessment.toP) (ofP := MLModelCardFairnessAssessment.ofP) (.there (.there .here)) hd (fun _ => rfl) (fun _ _ => rfl)),
    (struct_member (F := J.mlModelCardFairnessAssessmentFields) (toP := MLModelCardFairnessAssessment.toP) (ofP := MLModelCardFairnessAssessment.ofP) (.there (.there (.there .here))) hd (fun _ => rfl) (fun _ _ => rfl))⟩

/-- cyclonedx.go:1072-1080 -/
theorem json_members_mlModelCardConsiderations :
    Object J.mlModelCardConsiderations ["users", "useCases", "technicalLimitations", "performanceTradeoffs", "ethicalConsiderations", "environmentalConsiderations", "fairnessAssessments"] ∧
    Member J.mlModelCardConsiderations "users" false (JCodec.pslice JCodec.string) (fun x => x.users)
      (fun (x : MLModelCardConsiderations) v => { x with users := v }) ∧
    Member J.mlModelCardConsiderations "useCases" false (JCodec.pslice JCodec.string) (fun x => x.useCases)
      (fun (x : MLModelCardConsiderations) v => { x with useCases := v }) ∧
    Member J.mlModelCardConsiderations "technicalLimitations" false (JCodec.pslice JCodec.string) (fun x => x.technicalLimitations)
      (fun (x : MLModelCardConsiderations) v => { x with technicalLimitations := v }) ∧
    Member J.mlModelCardConsiderations "performanceTradeoffs" false (JCodec.pslice JCodec.string) (fun x => x.performanceTradeoffs)
      (fun (x : MLModelCardConsiderations) v => { x with performanceTradeoffs := v }) ∧
    Member J.mlModelCardConsiderations "ethicalConsiderations" false (JCodec.pslice J.mlModelCardEthicalConsideration) (fun x => x.ethicalConsiderations)
      (fun (x : MLModelCardConsiderations) v => { x with ethicalConsiderations := v }) ∧
    Member J.mlModelCardConsiderations "environmentalConsiderations" false (JCodec.option J.mlModelCardEnvironmentalConsiderations) (fun x => x.environmentalConsiderations)
      (fun (x : MLModelCardConsiderations) v => { x with environmentalConsiderations := v }) ∧
    Member J.mlModelCardConsiderations "fairnessAssessments" false (JCodec.pslice J.mlModelCardFairnessAssessment) (fun x => x.fairnessAssessments)
      (fun (x : MLModelCardConsiderations) v => { x with fairnessAssessments := v }) := by
  have hd : JFields.NamesDistinct J.mlModelCardConsiderationsFields :=
    show (List.map Json.foldKey ["users", "useCases", "technicalLimitations", "performanceTradeoffs", "ethicalConsiderations", "environmentalConsiderations", "fairnessAssessments"]).Nodup by decide +kernel
  have ho := struct_object J.mlModelCardConsiderationsFields MLModelCardConsiderations.toP MLModelCardConsiderations.ofP (fun s => by cases s; rfl) (fun _ => rfl) ["users", "useCases", "technicalLimitations", "performanceTradeoffs", "ethicalConsiderations", "environmentalConsiderations", "fairnessAssessments"] rfl
  exact ⟨ho,
    (struct_member (F := J.mlModelCardConsiderationsFields) (toP := MLModelCardConsiderations.toP) (ofP := MLModelCardConsiderations.ofP) .here hd (fun _ => rfl) (fun _ _ => rfl)),
    (struct_member (F := J.mlModelCardConsiderationsFields) (toP := MLModelCardConsiderations.toP) (ofP := MLModelCardConsiderations.ofP) (.there .here) hd (fun _ => rfl) (fun _ _ => rfl)),
    (struct_member (F := J.mlModelCardConsiderationsFields) (toP := MLModelCardConsiderations.toP) (ofP := MLModelCardConsiderations.ofP) (.there (.there .here)) hd (fun _ => rfl) (fun _ _ => rfl)),
    (struct_member (F := J.mlModelCardConsiderationsFields) (toP := MLModelCardConsiderations.toP) (ofP := MLModelCardConsiderations.ofP) (.there (.there (.there .here))) hd (fun _ => rfl) (fun _ _ => rfl)),
    (struct_member (F := J.mlModelCardConsiderationsFields) (toP := MLModelCardConsiderations.toP) (ofP := MLModelCardConsiderations.ofP) (.there (.there (.there (.there .here)))) hd (fun _ => rfl) (fun _ _ => rfl)),
    (struct_member (F := J.mlModelCardConsiderationsFields) (toP := MLModelCardConsiderations.toP) (ofP := MLModelCardConsiderations.ofP) (.there (.there (.there (.there (.there .here))))) hd (fun _ => rfl) (fun _ _ => rfl)),
    (struct_member (F := J.mlModelCardConsiderationsFields) (toP := MLModelCardConsiderations.toP) (ofP := MLModelCardConsiderations.ofP) (.there (.there (.there (.there (.there (.there .here)))))) hd (fun _ => rfl) (fun _ _ => rfl))⟩

/-- cyclonedx.go:1061-1063 -/
theorem json_members_mlInputOutputParameters :
    Object J.mlInputOutputParameters ["format"] ∧
    Member J.mlInputOutputParameters "format" false JCodec.string (fun x => x.format)
      (fun (x : MLInputOutputParameters) v => { x with format := v }) := by
  have hd : JFields.NamesDistinct J.mlInputOutputParametersFields :=
    show (List.map Json.foldKey ["format"]).Nodup by decide +kernel
  have ho := struct_object J.mlInputOutputParametersFields MLInputOutputParameters.toP MLInputOutputParameters.ofP (fun s => by cases s; rfl) (fun _ => rfl) ["format"] rfl
  exact ⟨ho,
    (struct_member (F := J.mlInputOutputParametersFields) (toP := MLInputOutputParameters.toP) (ofP := MLInputOutputParameters.ofP) .here hd (fun _ => rfl) (fun _ _ => rfl))⟩

/-- cyclonedx.go:1175-1177 -/
theorem json_members_mlModelParametersApproach :
    Object J.mlModelParametersApproach ["type"] ∧
    Member J.mlModelParametersApproach "type" false JCodec.string (fun x => x.type)
      (fun (x : MLModelParametersApproach) v => { x with type := v }) := by
  have hd : JFields.NamesDistinct J.mlModelParametersApproachFields :=
    show (List.map Json.foldKey ["type"]).Nodup by decide +kernel
  have ho := struct_object J.mlModelParametersApproachFields MLModelParametersApproach.toP MLModelParametersApproach.ofP (fun s => by cases s; rfl) (fun _ => rfl) ["type"] rfl
  exact ⟨ho,
    (struct_member (F := J.mlModelParametersApproachFields) (toP := MLModelParametersApproach.toP) (ofP := MLModelParametersApproach.ofP) .here hd (fun _ => rfl) (fun _ _ => rfl))⟩

/-- cyclonedx.go:1165-1173 -/
theorem json_members_mlModelParameters :
    Object J.mlModelParameters ["approach", "task", "architectureFamily", "modelArchitecture", "datasets", "inputs", "outputs"] ∧
    Member J.mlModelParameters "approach" false (JCodec.option J.mlModelParametersApproach) (fun x => x.approach)
      (fun (x : MLModelParameters) v => { x with approach := v }) ∧
    Member J.mlModelParameters "task" false JCodec.string (fun x => x.task)
      (fun (x : MLModelParameters) v => { x with task := v }) ∧
    Member J.mlModelParameters "architectureFamily" false JCodec.string (fun x => x.architectureFamily)
      (fun (x : MLModelParameters) v => { x with architectureFamily := v }) ∧
    Member J.mlModelParameters "modelArchitecture" false JCodec.string (fun x => x.modelArchitecture)
      (fun (x : MLModelParameters) v => { x with modelArchitecture := v }) ∧
    Member J.mlModelParameters "datasets" false (JCodec.pslice J.mlDatasetChoice) (fun x => x.datasets)
      (fun (x : MLModelParameters) v => { x with datasets := v }) ∧
    Member J.mlModelParameters "inputs" false (JCodec.pslice J.mlInputOutputParameters) (fun x => x.inputs)
      (fun (x : MLModelParameters) v => { x with inputs := v }) ∧
    Member J.mlModelParameters "outputs" false (JCodec.pslice J.mlInputOutputParameters) (fun x => x.outputs)
      (fun (x : MLModelParameters) v => { x with outputs := v }) := by
  have hd : JFields.NamesDistinct J.mlModelParametersFields :=
    show (List.map Json.foldKey ["approach", "task", "architectureFamily", "modelArchitecture", "datasets", "inputs", "outputs"]).Nodup by decide +kernel
  have ho := struct_object J.mlModelParametersFields MLModelParameters.toP MLModelParameters.ofP (fun s => by cases s; rfl) (fun _ => rfl) ["approach", "task", "architectureFamily", "modelArchitecture", "datasets", "inputs", "outputs"] rfl
  exact ⟨ho,
    (struct_member (F := J.mlModelParametersFields) (toP := MLModelParameters.toP) (ofP := MLModelParameters.ofP) .here hd (fun _ => rfl) (fun _ _ => rfl)),
    (struct_member (F := J.mlModelParametersFields) (toP := MLModelParameters.toP) (ofP := MLModelParameters.ofP) (.there .here) hd (fun _ => rfl) (fun _ _ => rfl)),
    (struct_member (F := J.mlModelParametersFields) (toP := MLModelParameters.toP) (ofP := MLModelParameters.ofP) (.there (.there .here)) hd (fun _ => rfl) (fun _ _ => rfl)),
    (struct_member (F := J.mlModelParametersFields) (toP := MLModelParameters.toP) (ofP := MLModelParameters.ofP) (.there (.there (.there .here))) hd (fun _ => rfl) (fun _ _ => rfl)),
    (struct_member (F := J.mlModelParametersFields) (toP := MLModelParameters.toP) (ofP := MLModelParameters.ofP) (.there (.there (.there (.there .here)))) hd (fun _ => rfl) (fun _ _ => rfl)),
    (struct_member (F := J.mlModelParametersFields) (toP := MLModelParameters.toP) (ofP := MLModelParameters.ofP) (.there (.there (.there (.there (.there .here))))) hd (fun _ => rfl) (fun _ _ => rfl)),
    (struct_member (F := J.mlModelParametersFields) (toP := MLModelParameters.toP) (ofP := MLModelParameters.ofP) (.there (.there (.there (.there (.there (.there .here)))))) hd (fun _ => rfl) (fun _ _ => rfl))⟩

/-- cyclonedx.go:1201-1204 -/
theorem json_members_mlPerformanceMetricConfidenceInterval :
    Object J.mlPerformanceMetricConfidenceInterval ["lowerBound", "upperBound"] ∧
    Member J.mlPerformanceMetricConfidenceInterval "lowerBound" false JCodec.string (fun x => x.lowerBound)
      (fun (x : MLPerformanceMetricConfidenceInterval) v => { x with lowerBound := v }) ∧
    Member J.mlPerformanceMetricConfidenceInterval "upperBound" false JCodec.string (fun x => x.upperBound)
      (fun (x : MLPerformanceMetricConfidenceInterval) v => { x with upperBound := v }) := by
  have hd : JFields.NamesDistinct J.mlPerformanceMetricConfidenceIntervalFields :=
    show (List.map Json.foldKey ["lowerBound", "upperBound"]).Nodup by decide +kernel
  have ho := struct_object J.mlPerformanceMetricConfidenceIntervalFields MLPerformanceMetricConfidenceInterval.toP MLPerformanceMetricConfidenceInterval.ofP (fun s => by cases s; rfl) (fun _ => rfl) ["lowerBound", "upperBound"] rfl
  exact ⟨ho,
    (struct_member (F := J.mlPerformanceMetricConfidenceIntervalFields) (toP := MLPerformanceMetricConfidenceInterval.toP) (ofP := MLPerformanceMetricConfidenceInterval.ofP) .here hd (fun _ => rfl) (fun _ _ => rfl)),
    (struct_member (F := J.mlPerformanceMetricConfidenceIntervalFields) (toP := MLPerformanceMetricConfidenceInterval.toP) (ofP := MLPerformanceMetricConfidenceInterval.ofP) (.there .here) hd (fun _ => rfl) (fun _ _ => rfl))⟩

/-- cyclonedx.go:1194-1199 -/
theorem json_members_mlPerformanceMetric :
    Object J.mlPerformanceMetric ["type", "value", "slice", "confidenceInterval"] ∧
    Member J.mlPerformanceMetric "type" false JCodec.string (fun x => x.type)
      (fun (x : MLPerformanceMetric) v => { x with type := v }) ∧
    Member J.mlPerformanceMetric "value" false JCodec.string (fun x => x.value)
      (fun (x : MLPerformanceMetric) v => { x with value := v }) ∧
    Member J.mlPerformanceMetric "slice" false JCodec.string (fun x => x.slice)
      (fun (x : MLPerformanceMetric) v => { x with slice := v }) ∧
    Member J.mlPerformanceMetric "confidenceInterval" false (JCodec.option J.mlPerformanceMetricConfidenceInterval) (fun x => x.confidenceInterval)
      (fun (x : MLPerformanceMetric) v => { x with confidenceInterval := v }) := by
  have hd : JFields.NamesDistinct J.mlPerformanceMetricFields :=
    show (List.map Json.foldKey ["type", "value", "slice", "confidenceInterval"]).Nodup by decide +kernel
  have ho := struct_object J.mlPerformanceMetricFields MLPerformanceMetric.toP MLPerformanceMetric.ofP (fun s => by cases s; rfl) (fun _ => rfl) ["type", "value", "slice", "confidenceInterval"] rfl
  exact ⟨ho,
    (struct_member (F := J.mlPerformanceMetricFields) (toP := MLPerformanceMetric.toP) (ofP := MLPerformanceMetric.ofP) .here hd (fun _ => rfl) (fun _ _ => rfl)),
    (struct_member (F := J.mlPerformanceMetricFields) (toP := MLPerformanceMetric.toP) (ofP := MLPerformanceMetric.ofP) (.there .here) hd (fun _ => rfl) (fun _ _ => rfl)),
    (struct_member (F := J.mlPerformanceMetricFields) (toP := MLPerformanceMetric.toP) (ofP := MLPerformanceMetric.ofP) (.there (.there .here)) hd (fun _ => rfl) (fun _ _ => rfl)),
    (struct_member (F := J.mlPerformanceMetricFields) (toP := MLPerformanceMetric.toP) (ofP := MLPerformanceMetric.ofP) (.there (.there (.there .here))) hd (fun _ => rfl) (fun _ _ => rfl))⟩

/-- cyclonedx.go:1189-1192 -/
theorem json_members_mlQuantitativeAnalysis :
    Object J.mlQuantitativeAnalysis ["performanceMetrics", "graphics"] ∧
    Member J.mlQuantitativeAnalysis "performanceMetrics" false (JCodec.pslice J.mlPerformanceMetric) (fun x => x.performanceMetrics)
      (fun (x : MLQuantitativeAnalysis) v => { x with performanceMetrics := v }) ∧
    Member J.mlQuantitativeAnalysis "graphics" false (JCodec.option J.componentDataGraphics) (fun x => x.graphics)
      (fun (x : MLQuantitativeAnalysis) v => { x with graphics := v }) := by
  have hd : JFields.NamesDistinct J.mlQuantitativeAnalysisFields :=
    show (List.map Json.foldKey ["performanceMetrics", "graphics"]).Nodup by decide +kernel
  have ho := struct_object J.mlQuantitativeAnalysisFields MLQuantitativeAnalysis.toP MLQuantitativeAnalysis.ofP (fun s => by cases s; rfl) (fun _ => rfl) ["performanceMetrics", "graphics"] rfl
  exact ⟨ho,
    (struct_member (F := J.mlQuantitativeAnalysisFields) (toP := MLQuantitativeAnalysis.toP) (ofP := MLQuantitativeAnalysis.ofP) .here hd (fun _ => rfl) (fun _ _ => rfl)),
    (struct_member (F := J.mlQuantitativeAnalysisFields) (toP := MLQuantitativeAnalysis.toP) (ofP := MLQuantitativeAnalysis.ofP) (.there .here) hd (fun _ => rfl) (fun _ _ => rfl))⟩

/-- cyclonedx.go:1065-1070 -/
theorem json_members_mlModelCard :
    Object J.mlModelCard ["bom-ref", "modelParameters", "quantitativeAnalysis", "considerations"] ∧
    Member J.mlModelCard "bom-ref" false JCodec.string (fun x => x.bomRef)
      (fun (x : MLModelCard) v => { x with bomRef := v }) ∧
    Member J.mlModelCard "modelParameters" false (JCodec.option J.mlModelParameters) (fun x => x.modelParameters)
      (fun (x : MLModelCard) v => { x with modelParameters := v }) ∧
    Member J.mlModelCard "quantitativeAnalysis" false (JCodec.option J.mlQuantitativeAnalysis) (fun x => x.quantitativeAnalysis)
      (fun (x : MLModelCard) v => { x with quantitativeAnalysis := v }) ∧
    Member J.mlModelCard "considerations" false (JCodec.option J.mlModelCardConsiderations) (fun x => x.considerations)
      (fun (x : MLModelCard) v => { x with considerations := v }) := by
  have hd : JFields.NamesDistinct J.mlModelCardFields :=
    show (List.map Json.foldKey ["bom-ref", "modelParameters", "quantitativeAnalysis", "considerations"]).Nodup by decide +kernel
  have ho := struct_object J.mlModelCardFields MLModelCard.toP MLModelCard.ofP (fun s => by cases s; rfl) (fun _ => rfl) ["bom-ref", "modelParameters", "quantitativeAnalysis", "considerations"] rfl
  exact ⟨ho,
    (struct_member (F := J.mlModelCardFields) (toP := MLModelCard.toP) (ofP := MLModelCard.ofP) .here hd (fun _ => rfl) (fun _ _ => rfl)),
    (struct_member (F := J.mlModelCardFields) (toP := MLModelCard.toP) (ofP := MLModelCard.ofP) (.there .here) hd (fun _ => rfl) (fun _ _ => rfl)),
    (struct_member (F := J.mlModelCardFields) (toP := MLModelCard.toP) (ofP := MLModelCard.ofP) (.there (.there .here)) hd (fun _ => rfl) (fun _ _ => rfl)),
    (struct_member (F := J.mlModelCardFields) (toP := MLModelCard.toP) (ofP := MLModelCard.ofP) (.there (.there (.there .here))) hd (fun _ => rfl) (fun _ _ => rfl))⟩

/-- cyclonedx.go:832-836 -/
theorem json_members_identifiableAction :
    Object J.identifiableAction ["timestamp", "name", "email"] ∧
    Member J.identifiableAction "timestamp" false JCodec.string (fun x => x.timestamp)
      (fun (x : IdentifiableAction) v => { x with timestamp := v }) ∧
    Member J.identifiableAction "name" false JCodec.string (fun x => x.name)
      (fun (x : IdentifiableAction) v => { x with name := v }) ∧
    Member J.identifiableAction "email" false JCodec.string (fun x => x.email)
      (fun (x : IdentifiableAction) v => { x with email := v }) := by
  have hd : JFields.NamesDistinct J.identifiableActionFields :=
    show (List.map Json.foldKey ["timestamp", "name", "email"]).Nodup by decide +kernel
  have ho := struct_object J.identifiableActionFields IdentifiableAction.toP IdentifiableAction.ofP (fun s => by cases s; rfl) (fun _ => rfl) ["timestamp", "name", "email"] rfl
  exact ⟨ho,
    (struct_member (F := J.identifiableActionFields) (toP := IdentifiableAction.toP) (ofP := IdentifiableAction.ofP) .here hd (fun _ => rfl) (fun _ _ => rfl)),
    (struct_member (F := J.identifiableActionFields) (toP := IdentifiableAction.toP) (ofP := IdentifiableAction.ofP) (.there .here) hd (fun _ => rfl) (fun _ _ => rfl)),
    (struct_member (F := J.identifiableActionFields) (toP := IdentifiableAction.toP) (ofP := IdentifiableAction.ofP) (.there (.there .here)) hd (fun _ => rfl) (fun _ _ => rfl))⟩

/-- cyclonedx.go:231-237 -/
theorem json_members_commit :
    Object J.commit ["uid", "url", "author", "committer", "message"] ∧
    Member J.commit "uid" false JCodec.string (fun x => x.uid)
      (fun (x : Commit) v => { x with uid := v }) ∧
    Member J.commit "url" false JCodec.string (fun x => x.url)
      (fun (x : Commit) v => { x with url := v }) ∧
    Member J.commit "author" false (JCodec.option J.identifiableAction) (fun x => x.author)
      (fun (x : Commit) v => { x with author := v }) ∧
    Member J.commit "committer" false (JCodec.option J.identifiableAction) (fun x => x.committer)
      (fun (x : Commit) v => { x with committer := v }) ∧
    Member J.commit "message" false JCodec.string (fun x => x.message)
      (fun (x : Commit) v => { x with message := v }) := by
  have hd : JFields.NamesDistinct J.commitFields :=
    show (List.map Json.foldKey ["uid", "url", "author", "committer", "message"]).Nodup by decide +kernel
  have ho := struct_object J.commitFields Commit.toP Commit.ofP (fun s => by cases s; rfl) (fun _ => rfl) ["uid", "url", "author", "committer", "message"] rfl
  exact ⟨ho,
    (struct_member (F := J.commitFields) (toP := Commit.toP) (ofP := Commit.ofP) .here hd (fun _ => rfl) (fun _ _ => rfl)),
    (struct_member (F := J.commitFields) (toP := Commit.toP) (ofP := Commit.ofP) (.there .here) hd (fun _ => rfl) (fun _ _ => rfl)),
    (struct_member (F := J.commitFields) (toP := Commit.toP) (ofP := Commit.ofP) (.there (.there .here)) hd (fun _ => rfl) (fun _ _ => rfl)),
    (struct_member (F := J.commitFields) (toP := Commit.toP) (ofP := Commit.ofP) (.there (.there (.there .here))) hd (fun _ => rfl) (fun _ _ => rfl)),
    (struct_member (F := J.commitFields) (toP := Commit.toP) (ofP := Commit.ofP) (.there (.there (.there (.there .here)))) hd (fun _ => rfl) (fun _ _ => rfl))⟩

/-- cyclonedx.go:650-653 -/
theorem json_members_diff :
    Object J.diff ["text", "url"] ∧
    Member J.diff "text" false (JCodec.option J.attachedText) (fun x => x.text)
      (fun (x : Diff) v => { x with text := v }) ∧
    Member J.diff "url" false JCodec.string (fun x => x.url)
      (fun (x : Diff) v => { x with url := v }) := by
  have hd : JFields.NamesDistinct J.diffFields :=
    show (List.map Json.foldKey ["text", "url"]).Nodup by decide +kernel
  have ho := struct_object J.diffFields Diff.toP Diff.ofP (fun s => by cases s; rfl) (fun _ => rfl) ["text", "url"] rfl
  exact ⟨ho,
    (struct_member (F := J.diffFields) (toP := Diff.toP) (ofP := Diff.ofP) .here hd (fun _ => rfl) (fun _ _ => rfl)),
    (struct_member (F := J.diffFields) (toP := Diff.toP) (ofP := Diff.ofP) (.there .here) hd (fun _ => rfl) (fun _ _ => rfl))⟩

/-- cyclonedx.go:1398-1401 -/
theorem json_members_source :
    Object J.source ["name", "url"] ∧
    Member J.source "name" false JCodec.string (fun x => x.name)
      (fun (x : Source) v => { x with name := v }) ∧
    Member J.source "url" false JCodec.string (fun x => x.url)
      (fun (x : Source) v => { x with url := v }) := by
  have hd : JFields.NamesDistinct J.sourceFields :=
    show (List.map Json.foldKey ["name", "url"]).Nodup by decide +kernel
  have ho := struct_object J.sourceFields Source.toP Source.ofP (fun s => by cases s; rfl) (fun _ => rfl) ["name", "url"] rfl
  exact ⟨ho,
    (struct_member (F := J.sourceFields) (toP := Source.toP) (ofP := Source.ofP) .here hd (fun _ => rfl) (fun _ _ => rfl)),
    (struct_member (F := J.sourceFields) (toP := Source.toP) (ofP := Source.ofP) (.there .here) hd (fun _ => rfl) (fun _ _ => rfl))⟩

/-- cyclonedx.go:892-899 -/
theorem json_members_issue :
    Object J.issue ["id", "name", "description", "source", "references", "type"] ∧
    Member J.issue "id" true JCodec.string (fun x => x.id)
      (fun (x : Issue) v => { x with id := v }) ∧
    Member J.issue "name" false JCodec.string (fun x => x.name)
      (fun (x : Issue) v => { x with name := v }) ∧
    Member J.issue "description" true JCodec.string (fun x => x.description)
      (fun (x : Issue) v => { x with description := v }) ∧
    Member J.issue "source" false (JCodec.option J.source) (fun x => x.source)
      (fun (x : Issue) v => { x with source := v }) ∧
    Member J.issue "references" false (JCodec.pslice JCodec.string) (fun x => x.references)
      (fun (x : Issue) v => { x with references := v }) ∧
    Member J.issue "type" true JCodec.string (fun x => x.type)
      (fun (x : Issue) v => { x with type := v }) := by
  have hd : JFields.NamesDistinct J.issueFields :=
    show (List.map Json.foldKey ["id", "name", "description", "source", "references", "type"]).Nodup by decide +kernel
  have ho := struct_object J.issueFields Issue.toP Issue.ofP (fun s => by cases s; rfl) (fun _ => rfl) ["id", "name", "description", "source", "references", "type"] rfl
  exact ⟨ho,
    (struct_member (F := J.issueFields) (toP := Issue.toP) (ofP := Issue.ofP) .here hd (fun _ => rfl) (fun _ _ => rfl)),
    (struct_member (F := J.issueFields) (toP := Issue.toP) (ofP := Issue.ofP) (.there .here) hd (fun _ => rfl) (fun _ _ => rfl)),
    (struct_member (F := J.issueFields) (toP := Issue.toP) (ofP := Issue.ofP) (.there (.there .here)) hd (fun _ => rfl) (fun _ _ => rfl)),
    (struct_member (F := J.issueFields) (toP := Issue.toP) (ofP := Issue.ofP) (.there (.there (.there .here))) hd (fun _ => rfl) (fun _ _ => rfl)),
    (struct_member (F := J.issueFields) (toP := Issue.toP) (ofP := Issue.ofP) (.there (.there (.there (.there .here)))) hd (fun _ => rfl) (fun _ _ => rfl)),
    (struct_member (F := J.issueFields) (toP := Issue.toP) (ofP := Issue.ofP) (.there (.there (.there (.there (.there .here))))) hd (fun _ => rfl) (fun _ _ => rfl))⟩

/-- cyclonedx.go:1237-1241 -/
theorem json_members_patch :
    Object J.patch ["diff", "resolves", "type"] ∧
    Member J.patch "diff" false (JCodec.option J.diff) (fun x => x.diff)
      (fun (x : Patch) v => { x with diff := v }) ∧
    Member J.patch "resolves" false (JCodec.pslice J.issue) (fun x => x.resolves)
      (fun (x : Patch) v => { x with resolves := v }) ∧
    Member J.patch "type" true JCodec.string (fun x => x.type)
      (fun (x : Patch) v => { x with type := v }) := by
  have hd : JFields.NamesDistinct J.patchFields :=
    show (List.map Json.foldKey ["diff", "resolves", "type"]).Nodup by decide +kernel
  have ho := struct_object J.patchFields Patch.toP Patch.ofP (fun s => by cases s; rfl) (fun _ => rfl) ["diff", "resolves", "type"] rfl
  exact ⟨ho,
    (struct_member (F := J.patchFields) (toP := Patch.toP) (ofP := Patch.ofP) .here hd (fun _ => rfl) (fun _ _ => rfl)),
    (struct_member (F := J.patchFields) (toP := Patch.toP) (ofP := Patch.ofP) (.there .here) hd (fun _ => rfl) (fun _ _ => rfl)),
    (struct_member (F := J.patchFields) (toP := Patch.toP) (ofP := Patch.ofP) (.there (.there .here)) hd (fun _ => rfl) (fun _ _ => rfl))⟩

/-- cyclonedx.go:1252-1259 -/
theorem json_members_pedigree :
    Object (J.pedigree J.component) ["ancestors", "descendants", "variants", "commits", "patches", "notes"] ∧
    Member (J.pedigree J.component) "ancestors" false (JCodec.pslice J.component) (fun x => x.ancestors)
      (fun (x : Pedigree Component) v => { x with ancestors := v }) ∧
    Member (J.pedigree J.component) "descendants" false (JCodec.pslice J.component) (fun x => x.descendants)
      (fun (x : Pedigree Component) v => { x with descendants := v }) ∧
    Member (J.pedigree J.component) "variants" false (JCodec.pslice J.component) (fun x => x.variants)
      (fun (x : Pedigree Component) v => { x with variants := v }) ∧
    Member (J.pedigree J.component) "commits" false (JCodec.pslice J.commit) (fun x => x.commits)
      (fun (x : Pedigree Component) v => { x with commits := v }) ∧
    Member (J.pedigree J.component) "patches" false (JCodec.pslice J.patch) (fun x => x.patches)
      (fun (x : Pedigree Component) v => { x with patches := v }) ∧
    Member (J.pedigree J.component) "notes" false JCodec.string (fun x => x.notes)
      (fun (x : Pedigree Component) v => { x with notes := v }) := by
  have hd : JFields.NamesDistinct (J.pedigreeFields J.component) :=
    show (List.map Json.foldKey ["ancestors", "descendants", "variants", "commits", "patches", "notes"]).Nodup by decide +kernel
  have ho := struct_object (J.pedigreeFields J.component) Pedigree.toP Pedigree.ofP (fun s => by cases s; rfl) (fun _ => rfl) ["ancestors", "descendants", "variants", "commits", "patches", "notes"] rfl
  exact ⟨ho,
    (struct_member (F := (J.pedigreeFields J.component)) (toP := Pedigree.toP) (ofP := Pedigree.ofP) .here hd (fun _ => rfl) (fun _ _ => rfl)),
    (struct_member (F := (J.pedigreeFields J.component)) (toP := Pedigree.toP) (ofP := Pedigree.ofP) (.there .here) hd (fun _ => rfl) (fun _ _ => rfl)),
    (struct_member (F := (J.pedigreeFields J.component)) (toP := Pedigree.toP) (ofP := Pedigree.ofP) (.there (.there .here)) hd (fun _ => rfl) (fun _ _ => rfl)),
    (struct_member (F := (J.pedigreeFields J.component)) (toP := Pedigree.toP) (ofP := Pedigree.ofP) (.there (.there (.there .here))) hd (fun _ => rfl) (fun _ _ => rfl)),
    (struct_member (F := (J.pedigreeFields J.component)) (toP := Pedigree.toP) (ofP := Pedigree.ofP) (.there (.there (.there (.there .here)))) hd (fun _ => rfl) (fun _ _ => rfl)),
    (struct_member (F := (J.pedigreeFields J.component)) (toP := Pedigree.toP) (ofP := Pedigree.ofP) (.there (.there (.there (.there (.there .here))))) hd (fun _ => rfl) (fun _ _ => rfl))⟩

/-- cyclonedx.go:1206-1209 -/
theorem json_members_note :
    Object J.note ["locale", "text"] ∧
    Member J.note "locale" false JCodec.string (fun x => x.locale)
      (fun (x : Note) v => { x with locale := v }) ∧
    Member J.note "text" true J.attachedText (fun x => x.text)
      (fun (x : Note) v => { x with text := v }) := by
  have hd : JFields.NamesDistinct J.noteFields :=
    show (List.map Json.foldKey ["locale", "text"]).Nodup by decide +kernel
  have ho := struct_object J.noteFields Note.toP Note.ofP (fun s => by cases s; rfl) (fun _ => rfl) ["locale", "text"] rfl
  exact ⟨ho,
    (struct_member (F := J.noteFields) (toP := Note.toP) (ofP := Note.ofP) .here hd (fun _ => rfl) (fun _ _ => rfl)),
    (struct_member (F := J.noteFields) (toP := Note.toP) (ofP := Note.ofP) (.there .here) hd (fun _ => rfl) (fun _ _ => rfl))⟩

/-- cyclonedx.go:1323-1335 -/
theorem json_members_releaseNotes :
    Object J.releaseNotes ["type", "title", "featuredImage", "socialImage", "description", "timestamp", "aliases", "tags", "resolves", "notes", "properties"] ∧
    Member J.releaseNotes "type" true JCodec.string (fun x => x.type)
      (fun (x : ReleaseNotes) v => { x with type := v }) ∧
    Member J.releaseNotes "title" false JCodec.string (fun x => x.title)
      (fun (x : ReleaseNotes) v => { x with title := v }) ∧
    Member J.releaseNotes "featuredImage" false JCodec.string (fun x => x.featuredImage)
      (fun (x : ReleaseNotes) v => { x with featuredImage := v }) ∧
    Member J.releaseNotes "socialImage" false JCodec.string (fun x => x.socialImage)
      (fun (x : ReleaseNotes) v => { x with socialImage := v }) ∧
    Member J.releaseNotes "description" false JCodec.string (fun x => x.description)
      (fun (x : ReleaseNotes) v => { x with description := v }) ∧
    Member J.releaseNotes "timestamp" false JCodec.string (fun x => x.timestamp)
      (fun (x : ReleaseNotes) v => { x with timestamp := v }) ∧
    Member J.releaseNotes "aliases" false (JCodec.pslice JCodec.string) (fun x => x.aliases)
      (fun (x : ReleaseNotes) v => { x with aliases := v }) ∧
    Member J.releaseNotes "tags" false (JCodec.pslice JCodec.string) (fun x => x.tags)
      (fun (x : ReleaseNotes) v => { x with tags := v }) ∧
    Member J.releaseNotes "resolves" false (JCodec.pslice J.issue) (fun x => x.resolves)
      (fun (x : ReleaseNotes) v => { x with resolves := v }) ∧
    Member J.releaseNotes "notes" false (JCodec.pslice J.note) (fun x => x.notes)
      (fun (x : ReleaseNotes) v => { x with notes := v }) ∧
    Member J.releaseNotes "properties" false (JCodec.pslice J.property) (fun x => x.properties)
      (fun (x : ReleaseNotes) v => { x with properties := v }) := by
  have hd : JFields.NamesDistinct J.releaseNotesFields :=
    show (List.map Json.foldKey ["type", "title", "featuredImage", "socialImage", "description", "timestamp", "aliases", "tags", "resolves", "notes", "properties"]).Nodup by decide +kernel
  have ho := struct_object J.releaseNotesFields ReleaseNotes.toP ReleaseNotes.ofP (fun s => by cases s; rfl) (fun _ => rfl) ["type", "title", "featuredImage", "socialImage", "description", "timestamp", "aliases", "tags", "resolves", "notes", "properties"] rfl
  exact ⟨ho,
    (struct_member (F := J.releaseNotesFields) (toP := ReleaseNotes.toP) (ofP := ReleaseNotes.ofP) .here hd (fun _ => rfl) (fun _ _ => rfl)),
    (struct_member (F := J.releaseNotesFields) (toP := ReleaseNotes.toP) (ofP := ReleaseNotes.ofP) (.there .here) hd (fun _ => rfl) (fun _ _ => rfl)),
    (struct_member (F := J.releaseNotesFields) (toP := ReleaseNotes.toP) (ofP := ReleaseNotes.ofP) (.there (.there .here)) hd (fun _ => rfl) (fun _ _ => rfl)),
    (struct_member (F := J.releaseNotesFields) (toP := ReleaseNotes.toP) (ofP := ReleaseNotes.ofP) (.there (.there (.there .here))) hd (fun _ => rfl) (fun _ _ => rfl)),
    (struct_member (F := J.releaseNotesFields) (toP := ReleaseNotes.toP) (ofP := ReleaseNotes.ofP) (.there (.there (.there (.there .here)))) hd (fun _ => rfl) (fun _ _ => rfl)),
    (struct_member (F := J.releaseNotesFields) (toP := ReleaseNotes.toP) (ofP := ReleaseNotes.ofP) (.there (.there (.there (.there (.there .here))))) hd (fun _ => rfl) (fun _ _ => rfl)),
    (struct_member (F := J.releaseNotesFields) (toP := ReleaseNotes.toP) (ofP := ReleaseNotes.ofP) (.there (.there (.there (.there (.there (.there .here)))))) hd (fun _ => rfl) (fun _ _ => rfl)),
    (struct_member (F := J.releaseNotesFields) (toP := ReleaseNotes.toP) (ofP := ReleaseNotes.ofP) (.there (.there (.there (.there (.there (.there (.there .here))))))) hd (fun _ => rfl) (fun _ _ => rfl)),
    (struct_member (F := J.releaseNotesFields) (toP := ReleaseNotes.toP) (ofP := ReleaseNotes.ofP) (.there (.there (.there (.there (.there (.there (.there (.there .here)))))))) hd (fun _ => rfl) (fun _ _ => rfl)),
    (struct_member (F := J.releaseNotesFields) (toP := ReleaseNotes.toP) (ofP := ReleaseNotes.ofP) (.there (.there (.there (.there (.there (.there (.there (.there (.there .here))))))))) hd (fun _ => rfl) (fun _ _ => rfl)),
    (struct_member (F := J.releaseNotesFields) (toP := ReleaseNotes.toP) (ofP := ReleaseNotes.ofP) (.there (.there (.there (.there (.there (.there (.there (.there (.there (.there .here)))))))))) hd (fun _ => rfl) (fun _ _ => rfl))⟩

/-- cyclonedx.go:1449-1457 -/
theorem json_members_swid :
    Object J.swid ["text", "url", "tagId", "name", "version", "tagVersion", "patch"] ∧
    Member J.swid "text" false (JCodec.option J.attachedText) (fun x => x.text)
      (fun (x : SWID) v => { x with text := v }) ∧
    Member J.swid "url" false JCodec.string (fun x => x.url)
      (fun (x : SWID) v => { x with url := v }) ∧
    Member J.swid "tagId" true JCodec.string (fun x => x.tagID)
      (fun (x : SWID) v => { x with tagID := v }) ∧
    Member J.swid "name" true JCodec.string (fun x => x.name)
      (fun (x : SWID) v => { x with name := v }) ∧
    Member J.swid "version" false JCodec.string (fun x => x.version)
      (fun (x : SWID) v => { x with version := v }) ∧
    Member J.swid "tagVersion" false (JCodec.option JCodec.int) (fun x => x.tagVersion)
      (fun (x : SWID) v => { x with tagVersion := v }) ∧
    Member J.swid "patch" false (JCodec.option JCodec.bool) (fun x => x.patch)
      (fun (x : SWID) v => { x with patch := v }) := by
  have hd : JFields.NamesDistinct J.swidFields :=
    show (List.map Json.foldKey ["text", "url", "tagId", "name", "version", "tagVersion", "patch"]).Nodup by decide +kernel
  have ho := struct_object J.swidFields SWID.toP SWID.ofP (fun s => by cases s; rfl) (fun _ => rfl) ["text", "url", "tagId", "name", "version", "tagVersion", "patch"] rfl
  exact ⟨ho,
    (struct_member (F := J.swidFields) (toP := SWID.toP) (ofP := SWID.ofP) .here hd (fun _ => rfl) (fun _ _ => rfl)),
    (struct_member (F := J.swidFields) (toP := SWID.toP) (ofP := SWID.ofP) (.there .here) hd (fun _ => rfl) (fun _ _ => rfl)),
    (struct_member (F := J.swidFields) (toP := SWID.toP) (ofP := SWID.ofP) (.there (.there .here)) hd (fun _ => rfl) (fun _ _ => rfl)),
    (struct_member (F := J.swidFields) (toP := SWID.toP) (ofP := SWID.ofP) (.there (.there (.there .here))) hd (fun _ => rfl) (fun _ _ => rfl)),
    (struct_member (F := J.swidFields) (toP := SWID.toP) (ofP := SWID.ofP) (.there (.there (.there (.there .here)))) hd (fun _ => rfl) (fun _ _ => rfl)),
    (struct_member (F := J.swidFields) (toP := SWID.toP) (ofP := SWID.ofP) (.there (.there (.there (.there (.there .here))))) hd (fun _ => rfl) (fun _ _ => rfl)),
    (struct_member (F := J.swidFields) (toP := SWID.toP) (ofP := SWID.ofP) (.there (.there (.there (.there (.there (.there .here)))))) hd (fun _ => rfl) (fun _ _ => rfl))⟩

/-- cyclonedx.go:1779-1785 -/
theorem json_members_patentAssertion :
    Object J.patentAssertion ["bom-ref", "patentRefs", "assertionType", "asserter", "notes"] ∧
    Member J.patentAssertion "bom-ref" false JCodec.string (fun x => x.bomRef)
      (fun (x : PatentAssertion) v => { x with bomRef := v }) ∧
    Member J.patentAssertion "patentRefs" false (JCodec.pslice J.bomReference) (fun x => x.patentRefs)
      (fun (x : PatentAssertion) v => { x with patentRefs := v }) ∧
    Member J.patentAssertion "assertionType" true JCodec.string (fun x => x.assertionType)
      (fun (x : PatentAssertion) v => { x with assertionType := v }) ∧
    Member J.patentAssertion "asserter" true (JCodec.option J.asserterChoice) (fun x => x.asserter)
      (fun (x : PatentAssertion) v => { x with asserter := v }) ∧
    Member J.patentAssertion "notes" false JCodec.string (fun x => x.notes)
      (fun (x : PatentAssertion) v => { x with notes := v }) := by
  have hd : JFields.NamesDistinct J.patentAssertionFields :=
    show (List.map Json.foldKey ["bom-ref", "patentRefs", "assertionType", "asserter", "notes"]).Nodup by decide +kernel
  have ho := struct_object J.patentAssertionFields PatentAssertion.toP PatentAssertion.ofP (fun s => by cases s; rfl) (fun _ => rfl) ["bom-ref", "patentRefs", "assertionType", "asserter", "notes"] rfl
  exact ⟨ho,
    (struct_member (F := J.patentAssertionFields) (toP := PatentAssertion.toP) (ofP := PatentAssertion.ofP) .here hd (fun _ => rfl) (fun _ _ => rfl)),
    (struct_member (F := J.patentAssertionFields) (toP := PatentAssertion.toP) (ofP := PatentAssertion.ofP) (.there .here) hd (fun _ => rfl) (fun _ _ => rfl)),
    (struct_member (F := J.patentAssertionFields) (toP := PatentAssertion.toP) (ofP := PatentAssertion.ofP) (.there (.there .here)) hd (fun _ => rfl) (fun _ _ => rfl)),
    (struct_member (F := J.patentAssertionFields) (toP := PatentAssertion.toP) (ofP := PatentAssertion.ofP) (.there (.there (.there .here))) hd (fun _ => rfl) (fun _ _ => rfl)),
    (struct_member (F := J.patentAssertionFields) (toP := PatentAssertion.toP) (ofP := PatentAssertion.ofP) (.there (.there (.there (.there .here)))) hd (fun _ => rfl) (fun _ _ => rfl))⟩

/-- cyclonedx.go:239-276 -/
theorem json_members_component :
    Object J.component ["bom-ref", "mime-type", "type", "supplier", "manufacturer", "author", "authors", "publisher", "group", "name", "version", "description", "scope", "hashes", "licenses", "copyright", "cpe", "purl", "omniborId", "swhid", "swid", "modified", "pedigree", "externalReferences", "properties", "components", "evidence", "releaseNotes", "modelCard", "data", "cryptoProperties", "tags", "isExternal", "patentAssertions", "versionRange", "signature"] ∧
    Member J.component "bom-ref" false JCodec.string (fun x => x.bomRef)
      (fun (x : Component) v => { x with bomRef := v }) ∧
    Member J.component "mime-type" false JCodec.string (fun x => x.mimeType)
      (fun (x : Component) v => { x with mimeType := v }) ∧
    Member J.component "type" true JCodec.string (fun x => x.type)
      (fun (x : Component) v => { x with type := v }) ∧
    Member J.component "supplier" false (JCodec.option J.organizationalEntity) (fun x => x.supplier)
      (fun (x : Component) v => { x with supplier := v }) ∧
    Member J.component "manufacturer" false (JCodec.option J.organizationalEntity) (fun x => x.manufacturer)
      (fun (x : Component) v => { x with manufacturer := v }) ∧
    Member J.component "author" false JCodec.string (fun x => x.author)
      (fun (x : Component) v => { x with author := v }) ∧
    Member J.component "authors" false (JCodec.pslice J.organizationalContact) (fun x => x.authors)
      (fun (x : Component) v => { x with authors := v }) ∧
    Member J.component "publisher" false JCodec.string (fun x => x.publisher)
      (fun (x : Component) v => { x with publisher := v }) ∧
    Member J.component "group" false JCodec.string (fun x => x.group)
      (fun (x : Component) v => { x with group := v }) ∧
    Member J.component "name" true JCodec.string (fun x => x.name)
      (fun (x : Component) v => { x with name := v }) ∧
    Member J.component "version" false JCodec.string (fun x => x.version)
      (fun (x : Component) v => { x with version := v }) ∧
    Member J.component "description" false JCodec.string (fun x => x.description)
      (fun (x : Component) v => { x with description := v }) ∧
    Member J.component "scope" false JCodec.string (fun x => x.scope)
      (fun (x : Component) v => { x with scope := v }) ∧
    Member J.component "hashes" false (JCodec.pslice J.hash) (fun x => x.hashes)
      (fun (x : Component) v => { x with hashes := v }) ∧
    Member J.component "licenses" false (JCodec.pslice J.licenseChoice) (fun x => x.licenses)
      (fun (x : Component) v => { x with licenses := v }) ∧
    Member J.component "copyright" false JCodec.string (fun x => x.copyright)
      (fun (x : Component) v => { x with copyright := v }) ∧
    Member J.component "cpe" false JCodec.string (fun x => x.cpe)
      (fun (x : Component) v => { x with cpe := v }) ∧
    Member J.component "purl" false JCodec.string (fun x => x.packageURL)
      (fun (x : Component) v => { x with packageURL := v }) ∧
    Member J.component "omniborId" false (JCodec.pslice JCodec.string) (fun x => x.omniborID)
      (fun (x : Component) v => { x with omniborID := v }) ∧
    Member J.component "swhid" false (JCodec.pslice JCodec.string) (fun x => x.swhid)
      (fun (x : Component) v => { x with swhid := v }) ∧
    Member J.component "swid" false (JCodec.option J.swid) (fun x => x.swid)
      (fun (x : Component) v => { x with swid := v }) ∧
    Member J.component "modified" false (JCodec.option JCodec.bool) (fun x => x.modified)
      (fun (x : Component) v => { x with modified := v }) ∧
    Member J.component "pedigree" false (JCodec.option (J.pedigree J.component)) (fun x => x.pedigree)
      (fun (x : Component) v => { x with pedigree := v }) ∧
    Member J.component "externalReferences" false (JCodec.pslice J.externalReference) (fun x => x.externalReferences)
      (fun (x : Component) v => { x with externalReferences := v }) ∧
    Member J.component "properties" false (JCodec.pslice J.property) (fun x => x.properties)
      (fun (x : Component) v => { x with properties := v }) ∧
    Member J.component "components" false (JCodec.pslice J.component) (fun x => x.components)
      (fun (x : Component) v => { x with components := v }) ∧
    Member J.component "evidence" false (JCodec.option J.evidence) (fun x => x.evidence)
      (fun (x : Component) v => { x with evidence := v }) ∧
    Member J.component "releaseNotes" false (JCodec.option J.releaseNotes) (fun x => x.releaseNotes)
      (fun (x : Component) v => { x with releaseNotes := v }) ∧
    Member J.component "modelCard" false (JCodec.option J.mlModelCard) (fun x => x.modelCard)
      (fun (x : Component) v => { x with modelCard := v }) ∧
    Member J.component "data" false (JCodec.pslice J.componentData) (fun x => x.data)
      (fun (x : Component) v => { x with data := v }) ∧
    Member J.component "cryptoProperties" false (JCodec.option J.cryptoProperties) (fun x => x.cryptoProperties)
      (fun (x : Component) v => { x with cryptoProperties := v }) ∧
    Member J.component "tags" false (JCodec.pslice JCodec.string) (fun x => x.tags)
      (fun (x : Component) v => { x with tags := v }) ∧
    Member J.component "isExternal" false (JCodec.option JCodec.bool) (fun x => x.isExternal)
      (fun (x : Component) v => { x with isExternal := v }) ∧
    Member J.component "patentAssertions" false (JCodec.pslice J.patentAssertion) (fun x => x.patentAssertions)
      (fun (x : Component) v => { x with patentAssertions := v }) ∧
    Member J.component "versionRange" false JCodec.string (fun x => x.versionRange)
      (fun (x : Component) v => { x with versionRange := v }) ∧
    Member J.component "signature" false (JCodec.option J.jsfSignature) (fun x => x.signature)
      (fun (x : Component) v => { x with signature := v }) := by
  have hd : JFields.NamesDistinct (J.componentFields J.component) :=
    show (List.map Json.foldKey ["bom-ref", "mime-type", "type", "supplier", "manufacturer", "author", "authors", "publisher", "group", "name", "version", "description", "scope", "hashes", "licenses", "copyright", "cpe", "purl", "omniborId", "swhid", "swid", "modified", "pedigree", "externalReferences", "properties", "components", "evidence", "releaseNotes", "modelCard", "data", "cryptoProperties", "tags", "isExternal", "patentAssertions", "versionRange", "signature"]).Nodup by decide +kernel
  have ho := struct_object (J.componentFields J.component) Component.toP Component.ofP (fun s => by cases s; rfl) (fun _ => rfl) ["bom-ref", "mime-type", "type", "supplier", "manufacturer", "author", "authors", "publisher", "group", "name", "version", "description", "scope", "hashes", "licenses", "copyright", "cpe", "purl", "omniborId", "swhid", "swid", "modified", "pedigree", "externalReferences", "properties", "components", "evidence", "releaseNotes", "modelCard", "data", "cryptoProperties", "tags", "isExternal", "patentAssertions", "versionRange", "signature"] rfl
  exact ⟨ho.congr (fun x j h => (component_enc x).symm.trans h) component_dec,
    (struct_member (F := (J.componentFields J.component)) (toP := Component.toP) (ofP := Component.ofP) .here hd (fun _ => rfl) (fun s v => by cases s; rfl)).congr (fun x j h => (component_enc x).symm.trans h) component_dec,
    (struct_member (F := (J.componentFields J.component)) (toP := Component.toP) (ofP := Component.ofP) (.there .here) hd (fun _ => rfl) (fun s v => by cases s; rfl)).congr (fun x j h => (component_enc x).symm.trans h) component_dec,
    (struct_member (F := (J.componentFields J.component)) (toP := Component.toP) (ofP := Component.ofP) (.there (.there .here)) hd (fun _ => rfl) (fun s v => by cases s; rfl)).congr (fun x j h => (component_enc x).symm.trans h) component_dec,
    (struct_member (F := (J.componentFields J.component)) (toP := Component.toP) (ofP := Component.ofP) (.there (.there (.there .here))) hd (fun _ => rfl) (fun s v => by cases s; rfl)).congr (fun x j h => (component_enc x).symm.trans h) component_dec,
    (struct_member (F := (J.componentFields J.component)) (toP := Component.toP) (ofP := Component.ofP) (.there (.there (.there (.there .here)))) hd (fun _ => rfl) (fun s v => by cases s; rfl)).congr (fun x j h => (component_enc x).symm.trans h) component_dec,
    (struct_member (F := (J.componentFields J.component)) (toP := Component.toP) (ofP := Component.ofP) (.there (.there (.there (.there (.there .here))))) hd (fun _ => rfl) (fun s v => by cases s; rfl)).congr (fun x j h => (component_enc x).symm.trans h) component_dec,
    (struct_member (F := (J.componentFields J.component)) (toP := Component.toP) (ofP := Component.ofP) (.there (.there (.there (.there (.there (.there .here)))))) hd (fun _ => rfl) (fun s v => by cases s; rfl)).congr (fun x j h => (component_enc x).symm.trans h) component_dec,
    (struct_member (F := (J.componentFields J.component)) (toP := Component.toP) (ofP := Component.ofP) (.there (.there (.there (.there (.there (.there (.there .here))))))) hd (fun _ => rfl) (fun s v => by cases s; rfl)).congr (fun x j h => (component_enc x).symm.trans h) component_dec,
    (struct_member (F := (J.componentFields J.component)) (toP := Component.toP) (ofP := Component.ofP) (.there (.there (.there (.there (.there (.there (.there (.there .here)))))))) hd (fun _ => rfl) (fun s v => by cases s; rfl)).congr (fun x j h => (component_enc x).symm.trans h) component_dec,
    (struct_member (F := (J.componentFields J.component)) (toP := Component.toP) (ofP := Component.ofP) (.there (.there (.there (.there (.there (.there (.there (.there (.there .here))))))))) hd (fun _ => rfl) (fun s v => by cases s; rfl)).congr (fun x j h => (component_enc x).symm.trans h) component_dec,
    (struct_member (F := (J.componentFields J.component)) (toP := Component.toP) (ofP := Component.ofP) (.there (.there (.there (.there (.there (.there (.there (.there (.there (.there .here)))))))))) hd (fun _ => rfl) (fun s v => by cases s; rfl)).congr (fun x j h => (component_enc x).symm.trans h) component_dec,
    (struct_member (F := (J.componentFields J.component)) (toP := Component.toP) (ofP := Component.ofP) (.there (.there (.there (.there (.there (.there (.there (.there (.there (.there (.there .here))))))))))) hd (fun _ => rfl) (fun s v => by cases s; rfl)).congr (fun x j h => (component_enc x).symm.trans h) component_dec,
    (struct_member (F := (J.componentFields J.component)) (toP := Component.toP) (ofP := Component.ofP) (.there (.there (.there (.there (.there (.there (.there (.there (.there (.there (.there (.there .here)))))))))))) hd (fun _ => rfl) (fun s v => by cases s; rfl)).congr (fun x j h => (component_enc x).symm.trans h) component_dec,
    (struct_member (F := (J.componentFields J.component)) (toP := Component.toP) (ofP := Component.ofP) (.there (.there (.there (.there (.there (.there (.there (.there (.there (.there (.there (.there (.there .here))))))))))))) hd (fun _ => rfl) (fun s v => by cases s; rfl)).congr (fun x j h => (component_enc x).symm.trans h) component_dec,
    (struct_member (F := (J.componentFields J.component)) (toP := Component.toP) (ofP := Component.ofP) (.there (.there (.there (.there (.there (.there (.there (.there (.there (.there (.there (.there (.there (.there .here)))))))))))))) hd (fun _ => rfl) (fun s v => by cases s; rfl)).congr (fun x j h => (component_enc x).symm.trans h) component_dec,
    (struct_member (F := (J.componentFields J.component)) (toP := Component.toP) (ofP := Component.ofP) (.there (.there (.there (.there (.there (.there (.there (.there (.there (.there (.there (.there (.there (.there (.there .here))))))))))))))) hd (fun _ => rfl) (fun s v => by cases s; rfl)).congr (fun x j h => (component_enc x).symm.trans h) component_dec,
    (struct_member (F := (J.componentFields J.component)) (toP := Component.toP) (ofP := Component.ofP) (.there (.there (.there (.there (.there (.there (.there (.there (.there (.there (.there (.there (.there (.there (.there (.there .here)))))))))))))))) hd (fun _ => rfl) (fun s v => by cases s; rfl)).congr (fun x j h => (component_enc x).symm.trans h) component_dec,
    (struct_member (F := (J.componentFields J.component)) (toP := Component.toP) (ofP := Component.ofP) (.there (.there (.there (.there (.there (.there (.there (.there (.there (.there (.there (.there (.there (.there (.there (.there (.there .here))))))))))))))))) hd (fun _ => rfl) (fun s v => by cases s; rfl)).congr (fun x j h => (component_enc x).symm.trans h) component_dec,
    (struct_member (F := (J.componentFields J.component)) (toP := Component.toP) (ofP := Component.ofP) (.there (.there (.there (.there (.there (.there (.there (.there (.there (.there (.there (.there (.there (.there (.there (.there (.there (.there .here)))))))))))))))))) hd (fun _ => rfl) (fun s v => by cases s; rfl)).congr (fun x j h => (component_enc x).symm.trans h) component_dec,
    (struct_member (F := (J.componentFields J.component)) (toP := Component.toP) (ofP := Component.ofP) (.there (.there (.there (.there (.there (.there (.there (.there (.there (.there (.there (.there (.there (.there (.there (.there (.there (.there (.there .here))))))))))))))))))) hd (fun _ => rfl) (fun s v => by cases s; rfl)).congr (fun x j h => (component_enc x).symm.trans h) component_dec,
    (struct_member (F := (J.componentFields J.component)) (toP := Component.toP) (ofP := Component.ofP) (.there (.there (.there (.there (.there (.there (.there (.there (.there (.there (.there (.there (.there (.there (.there (.there (.there (.there (.there (.there .here)))))))))))))))))))) hd (fun _ => rfl) (fun s v => by cases s; rfl)).congr (fun x j h => (component_enc x).symm.trans h) component_dec,
    (struct_member (F := (J.componentFields J.component)) (toP := Component.toP) (ofP := Component.ofP) (.there (.there (.there (.there (.there (.there (.there (.there (.there (.there (.there (.there (.there (.there (.there (.there (.there (.there (.there (.there (.there .here))))))))))))))))))))) hd (fun _ => rfl) (fun s v => by cases s; rfl)).congr (fun x j h => (component_enc x).symm.trans h) component_dec,
    (struct_member (F := (J.componentFields J.component)) (toP := Component.toP) (ofP := Component.ofP) (.there (.there (.there (.there (.there (.there (.there (.there (.there (.there (.there (.there (.there (.there (.there (.there (.there (.there (.there (.there (.there (.there .here)))))))))))))))))))))) hd (fun _ => rfl) (fun s v => by cases s; rfl)).congr (fun x j h => (component_enc x).symm.trans h) component_dec,
    (struct_member (F := (J.componentFields J.component)) (toP := Component.toP) (ofP := Component.ofP) (.there (.there (.there (.there (.there (.there (.there (.there (.there (.there (.there (.there (.there (.there (.there (.there (.there (.there (.there (.there (.there (.there (.there .here))))))))))))))))))))))) hd (fun _ => rfl) (fun s v => by cases s; rfl)).congr (fun x j h => (component_enc x).symm.trans h) component_dec,
    (struct_member (F := (J.componentFields J.component)) (toP := Component.toP) (ofP := Component.ofP) (.there (.there (.there (.there (.there (.there (.there (.there (.there (.there (.there (.there (.there (.there (.there (.there (.there (.there (.there (.there (.there (.there (.there (.there .here)))))))))))))))))))))))) hd (fun _ => rfl) (fun s v => by cases s; rfl)).congr (fun x j h => (component_enc x).symm.trans h) component_dec,
    (struct_member (F := (J.componentFields J.component)) (toP := Component.toP) (ofP := Component.ofP) (.there (.there (.there (.there (.there (.there (.there (.there (.there (.there (.there (.there (.there (.there (.there (.there (.there (.there (.there (.there (.there (.there (.there (.there (.there .here))))))))))))))))))))))))) hd (fun _ => rfl) (fun s v => by cases s; rfl)).congr (fun x j h => (component_enc x).symm.trans h) component_dec,
    (struct_member (F := (J.componentFields J.component)) (toP := Component.toP) (ofP := Component.ofP) (.there (.there (.there (.there (.there (.there (.there (.there (.there (.there (.there (.there (.there (.there (.there (.there (.there (.there (.there (.there (.there (.there (.there (.there (.there (.there .here)))))))))))))))))))))))))) hd (fun _ => rfl) (fun s v => by cases s; rfl)).congr (fun x j h => (component_enc x).symm.trans h) component_dec,
    (struct_member (F := (J.componentFields J.component)) (toP := Component.toP) (ofP := Component.ofP) (.there (.there (.there (.there (.there (.there (.there (.there (.there (.there (.there (.there (.there (.there (.there (.there (.there (.there (.there (.there (.there (.there (.there (.there (.there (.there (.there .here))))))))))))))))))))))))))) hd (fun _ => rfl) (fun s v => by cases s; rfl)).congr (fun x j h => (component_enc x).symm.trans h) component_dec,
    (struct_member (F := (J.componentFields J.component)) (toP := Component.toP) (ofP := Component.ofP) (.there (.there (.there (.there (.there (.there (.there (.there (.there (.there (.there (.there (.there (.there (.there (.there (.there (.there (.there (.there (.there (.there (.there (.there (.there (.there (.there (.there .here)))))))))))))))))))))))))))) hd (fun _ => rfl) (fun s v => by cases s; rfl)).congr (fun x j h => (component_enc x).symm.trans h) component_dec,
    (struct_member (F := (J.componentFields J.component)) (toP := Component.toP) (ofP := Component.ofP) (.there (.there (.there (.there (.there (.there (.there (.there (.there (.there (.there (.there (.there (.there (.there (.there (.there (.there (.there (.there (.there (.there (.there (.there (.there (.there (.there (.there (.there .here))))))))))))))))))))))))))))) hd (fun _ => rfl) (fun s v => by cases s; rfl)).congr (fun x j h => (component_enc x).symm.trans h) component_dec,
    (struct_member (F := (J.componentFields J.component)) (toP := Component.toP) (ofP := Component.ofP) (.there (.there (.there (.there (.there (.there (.there (.there (.there (.there (.there (.there (.there (.there (.there (.there (.there (.there (.there (.there (.there (.there (.there (.there (.there (.there (.there (.there (.there (.there .here)))))))))))))))))))))))))))))) hd (fun _ => rfl) (fun s v => by cases s; rfl)).congr (fun x j h => (component_enc x).symm.trans h) component_dec,
    (struct_member (F := (J.componentFields J.component)) (toP := Component.toP) (ofP := Component.ofP) (.there (.there (.there (.there (.there (.there (.there (.there (.there (.there (.there (.there (.there (.there (.there (.there (.there (.there (.there (.there (.there (.there (.there (.there (.there (.there (.there (.there (.there (.there (.there .here))))))))))))))))))))))))))))))) hd (fun _ => rfl) (fun s v => by cases s; rfl)).congr (fun x j h => (component_enc x).symm.trans h) component_dec,
    (struct_member (F := (J.componentFields J.component)) (toP := Component.toP) (ofP := Component.ofP) (.there (.there (.there (.there (.there (.there (.there (.there (.there (.there (.there (.there (.there (.there (.there (.there (.there (.there (.there (.there (.there (.there (.there (.there (.there (.there (.there (.there (.there (.there (.there (.there .here)))))))))))))))))))))))))))))))) hd (fun _ => rfl) (fun s v => by cases s; rfl)).congr (fun x j h => (component_enc x).symm.trans h) component_dec,
    (struct_member (F := (J.componentFields J.component)) (toP := Component.toP) (ofP := Component.ofP) (.there (.there (.there (.there (.there (.there (.there (.there (.there (.there (.there (.there (.there (.there (.there (.there (.there (.there (.there (.there (.there (.there (.there (.there (.there (.there (.there (.there (.there (.there (.there (.there (.there .here))))))))))))))))))))))))))))))))) hd (fun _ => rfl) (fun s v => by cases s; rfl)).congr (fun x j h => (component_enc x).symm.trans h) component_dec,
    (struct_member (F := (J.componentFields J.component)) (toP := Component.toP) (ofP := Component.ofP) (.there (.there (.there (.there (.there (.there (.there (.there (.there (.there (.there (.there (.there (.there (.there (.there (.there (.there (.there (.there (.there (.there (.there (.there (.there (.there (.there (.there (.there (.there (.there (.there (.there (.there .here)))))))))))))))))))))))))))))))))) hd (fun _ => rfl) (fun s v => by cases s; rfl)).congr (fun x j h => (component_enc x).symm.trans h) component_dec,
    (struct_member (F := (J.componentFields J.component)) (toP := Component.toP) (ofP := Component.ofP) (.there (.there (.there (.there (.there (.there (.there (.there (.there (.there (.there (.there (.there (.there (.there (.there (.there (.there (.there (.there (.there (.there (.there (.there (.there (.there (.there (.there (.there (.there (.there (.there (.there (.there (.there .here))))))))))))))))))))))))))))))))))) hd (fun _ => rfl) (fun s v => by cases s; rfl)).congr (fun x j h => (component_enc x).symm.trans h) component_dec⟩

/-- cyclonedx.go:551-559 -/
theorem json_members_dataClassification :
    Object J.dataClassification ["flow", "classification", "name", "description", "governance", "source", "destination"] ∧
    Member J.dataClassification "flow" true JCodec.string (fun x => x.flow)
      (fun (x : DataClassification) v => { x with flow := v }) ∧
    Member J.dataClassification "classification" true JCodec.string (fun x => x.classification)
      (fun (x : DataClassification) v => { x with classification := v }) ∧
    Member J.dataClassification "name" false JCodec.string (fun x => x.name)
      (fun (x : DataClassification) v => { x with name := v }) ∧
    Member J.dataClassification "description" false JCodec.string (fun x => x.description)
      (fun (x : DataClassification) v => { x with description := v }) ∧
    Member J.dataClassification "governance" false (JCodec.option J.dataGovernance) (fun x => x.governance)
      (fun (x : DataClassification) v => { x with governance := v }) ∧
    Member J.dataClassification "source" false (JCodec.pslice JCodec.string) (fun x => x.source)
      (fun (x : DataClassification) v => { x with source := v }) ∧
    Member J.dataClassification "destination" false (JCodec.pslice JCodec.string) (fun x => x.destination)
      (fun (x : DataClassification) v => { x with destination := v }) := by
  have hd : JFields.NamesDistinct J.dataClassificationFields :=
    show (List.map Json.foldKey ["flow", "classification", "name", "description", "governance", "source", "destination"]).Nodup by decide +kernel
  have ho := struct_object J.dataClassificationFields DataClassification.toP DataClassification.ofP (fun s => by cases s; rfl) (fun _ => rfl) ["flow", "classification", "name", "description", "governance", "source", "destination"] rfl
  exact ⟨ho,
    (struct_member (F := J.dataClassificationFields) (toP := DataClassification.toP) (ofP := DataClassification.ofP) .here hd (fun _ => rfl) (fun _ _ => rfl)),
    (struct_member (F := J.dataClassificationFields) (toP := DataClassification.toP) (ofP := DataClassification.ofP) (.there .here) hd (fun _ => rfl) (fun _ _ => rfl)),
    (struct_member (F := J.dataClassificationFields) (toP := DataClassification.toP) (ofP := DataClassification.ofP) (.there (.there .here)) hd (fun _ => rfl) (fun _ _ => rfl)),
    (struct_member (F := J.dataClassificationFields) (toP := DataClassification.toP) (ofP := DataClassification.ofP) (.there (.there (.there .here))) hd (fun _ => rfl) (fun _ _ => rfl)),
    (struct_member (F := J.dataClassificationFields) (toP := DataClassification.toP) (ofP := DataClassification.ofP) (.there (.there (.there (.there .here)))) hd (fun _ => rfl) (fun _ _ => rfl)),
    (struct_member (F := J.dataClassificationFields) (toP := DataClassification.toP) (ofP := DataClassification.ofP) (.there (.there (.there (.there (.there .here))))) hd (fun _ => rfl) (fun _ _ => rfl)),
    (struct_member (F := J.dataClassificationFields) (toP := DataClassification.toP) (ofP := DataClassification.ofP) (.there (.there (.there (.there (.there (.there .here)))))) hd (fun _ => rfl) (fun _ _ => rfl))⟩

/-- cyclonedx.go:1362-1382 -/
theorem json_members_service :
    Object J.service ["bom-ref", "provider", "group", "name", "version", "description", "endpoints", "authenticated", "x-trust-boundary", "data", "licenses", "externalReferences", "properties", "services", "releaseNotes", "tags", "trustZone", "patentAssertions", "signature"] ∧
    Member J.service "bom-ref" false JCodec.string (fun x => x.bomRef)
      (fun (x : Service) v => { x with bomRef := v }) ∧
    Member J.service "provider" false (JCodec.option J.organizationalEntity) (fun x => x.provider)
      (fun (x : Service) v => { x with provider := v }) ∧
    Member J.service "group" false JCodec.string (fun x => x.group)
      (fun (x : Service) v => { x with group := v }) ∧
    Member J.service "name" true JCodec.string (fun x => x.name)
      (fun (x : Service) v => { x with name := v }) ∧
    Member J.service "version" false JCodec.string (fun x => x.version)
      (fun (x : Service) v => { x with version := v }) ∧
    Member J.service "description" false JCodec.string (fun x => x.description)
      (fun (x : Service) v => { x with description := v }) ∧
    Member J.service "endpoints" false (JCodec.pslice JCodec.string) (fun x => x.endpoints)
      (fun (x : Service) v => { x with endpoints := v }) ∧
    Member J.service "authenticated" false (JCodec.option JCodec.bool) (fun x => x.authenticated)
      (fun (x : Service) v => { x with authenticated := v }) ∧
    Member J.service "x-trust-boundary" false (JCodec.option JCodec.bool) (fun x => x.crossesTrustBoundary)
      (fun (x : Service) v => { x with crossesTrustBoundary := v }) ∧
    Member J.service "data" false (JCodec.pslice J.dataClassification) (fun x => x.data)
      (fun (x : Service) v => { x with data := v }) ∧
    Member J.service "licenses" false (JCodec.pslice J.licenseChoice) (fun x => x.licenses)
      (fun (x : Service) v => { x with licenses := v }) ∧
    Member J.service "externalReferences" false (JCodec.pslice J.externalReference) (fun x => x.externalReferences)
      (fun (x : Service) v => { x with externalReferences := v }) ∧
    Member J.service "properties" false (JCodec.pslice J.property) (fun x => x.properties)
      (fun (x : Service) v => { x with properties := v }) ∧
    Member J.service "services" false (JCodec.pslice J.service) (fun x => x.services)
      (fun (x : Service) v => { x with services := v }) ∧
    Member J.service "releaseNotes" false (JCodec.option J.releaseNotes) (fun x => x.releaseNotes)
      (fun (x : Service) v => { x with releaseNotes := v }) ∧
    Member J.service "tags" false (JCodec.pslice JCodec.string) (fun x => x.tags)
      (fun (x : Service) v => { x with tags := v }) ∧
    Member J.service "trustZone" false JCodec.string (fun x => x.trustZone)
      (fun (x : Service) v => { x with trustZone := v }) ∧
    Member J.service "patentAssertions" false (JCodec.pslice J.patentAssertion) (fun x => x.patentAssertions)
      (fun (x : Service) v => { x with patentAssertions := v }) ∧
    Member J.service "signature" false (JCodec.option J.jsfSignature) (fun x => x.signature)
      (fun (x : Service) v => { x with signature := v }) := by
  have hd : JFields.NamesDistinct (J.serviceFields J.service) :=
    show (List.map Json.foldKey ["bom-ref", "provider", "group", "name", "version", "description", "endpoints", "authenticated", "x-trust-boundary", "data", "licenses", "externalReferences", "properties", "services", "releaseNotes", "tags", "trustZone", "patentAssertions", "signature"]).Nodup by decide +kernel
  have ho := struct_object (J.serviceFields J.service) Service.toP Service.ofP (fun s => by cases s; rfl) (fun _ => rfl) ["bom-ref", "provider", "group", "name", "version", "description", "endpoints", "authenticated", "x-trust-boundary", "data", "licenses", "externalReferences", "properties", "services", "releaseNotes", "tags", "trustZone", "patentAssertions", "signature"] rfl
  exact ⟨ho.congr (fun x j h => (service_enc x).symm.trans h) service_dec,
    (struct_member (F := (J.serviceFields J.service)) (toP := Service.toP) (ofP := Service.ofP) .here hd (fun _ => rfl) (fun s v => by cases s; rfl)).congr (fun x j h => (service_enc x).symm.trans h) service_dec,
    (struct_member (F := (J.serviceFields J.service)) (toP := Service.toP) (ofP := Service.ofP) (.there .here) hd (fun _ => rfl) (fun s v => by cases s; rfl)).congr (fun x j h => (service_enc x).symm.trans h) service_dec,
    (struct_member (F := (J.serviceFields J.service)) (toP := Service.toP) (ofP := Service.ofP) (.there (.there .here)) hd (fun _ => rfl) (fun s v => by cases s; rfl)).congr (fun x j h => (service_enc x).symm.trans h) service_dec,
    (struct_member (F := (J.serviceFields J.service)) (toP := Service.toP) (ofP := Service.ofP) (.there (.there (.there .here))) hd (fun _ => rfl) (fun s v => by cases s; rfl)).congr (fun x j h => (service_enc x).symm.trans h) service_dec,
    (struct_member (F := (J.serviceFields J.service)) (toP := Service.toP) (ofP := Service.ofP) (.there (.there (.there (.there .here)))) hd (fun _ => rfl) (fun s v => by cases s; rfl)).congr (fun x j h => (service_enc x).symm.trans h) service_dec,
    (struct_member (F := (J.serviceFields J.service)) (toP := Service.toP) (ofP := Service.ofP) (.there (.there (.there (.there (.there .here))))) hd (fun _ => rfl) (fun s v => by cases s; rfl)).congr (fun x j h => (service_enc x).symm.trans h) service_dec,
    (struct_member (F := (J.serviceFields J.service)) (toP := Service.toP) (ofP := Service.ofP) (.there (.there (.there (.there (.there (.there .here)))))) hd (fun _ => rfl) (fun s v => by cases s; rfl)).congr (fun x j h => (service_enc x).symm.trans h) service_dec,
    (struct_member (F := (J.serviceFields J.service)) (toP := Service.toP) (ofP := Service.ofP) (.there (.there (.there (.there (.there (.there (.there .here))))))) hd (fun _ => rfl) (fun s v => by cases s; rfl)).congr (fun x j h => (service_enc x).symm.trans h) service_dec,
    (struct_member (F := (J.serviceFields J.service)) (toP := Service.toP) (ofP := Service.ofP) (.there (.there (.there (.there (.there (.there (.there (.there .here)))))))) hd (fun _ => rfl) (fun s v => by cases s; rfl)).congr (fun x j h => (service_enc x).symm.trans h) service_dec,
    (struct_member (F := (J.serviceFields J.service)) (toP := Service.toP) (ofP := Service.ofP) (.there (.there (.there (.there (.there (.there (.there (.there (.there .here))))))))) hd (fun _ => rfl) (fun s v => by cases s; rfl)).congr (fun x j h => (service_enc x).symm.trans h) service_dec,
    (struct_member (F := (J.serviceFields J.service)) (toP := Service.toP) (ofP := Service.ofP) (.there (.there (.there (.there (.there (.there (.there (.there (.there (.there .here)))))))))) hd (fun _ => rfl) (fun s v => by cases s; rfl)).congr (fun x j h => (service_enc x).symm.trans h) service_dec,
    (struct_member (F := (J.serviceFields J.service)) (toP := Service.toP) (ofP := Service.ofP) (.there (.there (.there (.there (.there (.there (.there (.there (.there (.there (.there .here))))))))))) hd (fun _ => rfl) (fun s v => by cases s; rfl)).congr (fun x j h => (service_enc x).symm.trans h) service_dec,
    (struct_member (F := (J.serviceFields J.service)) (toP := Service.toP) (ofP := Service.ofP) (.there (.there (.there (.there (.there (.there (.there (.there (.there (.there (.there (.there .here)))))))))))) hd (fun _ => rfl) (fun s v => by cases s; rfl)).congr (fun x j h => (service_enc x).symm.trans h) service_dec,
    (struct_member (F := (J.serviceFields J.service)) (toP := Service.toP) (ofP := Service.ofP) (.there (.there (.there (.there (.there (.there (.there (.there (.there (.there (.there (.there (.there .here))))))))))))) hd (fun _ => rfl) (fun s v => by cases s; rfl)).congr (fun x j h => (service_enc x).symm.trans h) service_dec,
    (struct_member (F := (J.serviceFields J.service)) (toP := Service.toP) (ofP := Service.ofP) (.there (.there (.there (.there (.there (.there (.there (.there (.there (.there (.there (.there (.there (.there .here)))))))))))))) hd (fun _ => rfl) (fun s v => by cases s; rfl)).congr (fun x j h => (service_enc x).symm.trans h) service_dec,
    (struct_member (F := (J.serviceFields J.service)) (toP := Service.toP) (ofP := Service.ofP) (.there (.there (.there (.there (.there (.there (.there (.there (.there (.there (.there (.there (.there (.there (.there .here))))))))))))))) hd (fun _ => rfl) (fun s v => by cases s; rfl)).congr (fun x j h => (service_enc x).symm.trans h) service_dec,
    (struct_member (F := (J.serviceFields J.service)) (toP := Service.toP) (ofP := Service.ofP) (.there (.there (.there (.there (.there (.there (.there (.there (.there (.there (.there (.there (.there (.there (.there (.there .here)))))))))))))))) hd (fun _ => rfl) (fun s v => by cases s; rfl)).congr (fun x j h => (service_enc x).symm.trans h) service_dec,
    (struct_member (F := (J.serviceFields J.service)) (toP := Service.toP) (ofP := Service.ofP) (.there (.there (.there (.there (.there (.there (.there (.there (.there (.there (.there (.there (.there (.there (.there (.there (.there .here))))))))))))))))) hd (fun _ => rfl) (fun s v => by cases s; rfl)).congr (fun x j h => (service_enc x).symm.trans h) service_dec,
    (struct_member (F := (J.serviceFields J.service)) (toP := Service.toP) (ofP := Service.ofP) (.there (.there (.there (.there (.there (.there (.there (.there (.there (.there (.there (.there (.there (.there (.there (.there (.there (.there .here)))))))))))))))))) hd (fun _ => rfl) (fun s v => by cases s; rfl)).congr (fun x j h => (service_enc x).symm.trans h) service_dec⟩

/-- cyclonedx.go:60-65 -/
theorem json_members_annotator :
    Object J.annotator ["organization", "individual", "component", "service"] ∧
    Member J.annotator "organization" false (JCodec.option J.organizationalEntity) (fun x => x.organization)
      (fun (x : Annotator) v => { x with organization := v }) ∧
    Member J.annotator "individual" false (JCodec.option J.organizationalContact) (fun x => x.individual)
      (fun (x : Annotator) v => { x with individual := v }) ∧
    Member J.annotator "component" false (JCodec.option J.component) (fun x => x.component)
      (fun (x : Annotator) v => { x with component := v }) ∧
    Member J.annotator "service" false (JCodec.option J.service) (fun x => x.service)
      (fun (x : Annotator) v => { x with service := v }) := by
  have hd : JFields.NamesDistinct J.annotatorFields :=
    show (List.map Json.foldKey ["organization", "individual", "component", "service"]).Nodup by decide +kernel
  have ho := struct_object J.annotatorFields Annotator.toP Annotator.ofP (fun s => by cases s; rfl) (fun _ => rfl) ["organization", "individual", "component", "service"] rfl
  exact ⟨ho,
    (struct_member (F := J.annotatorFields) (toP := Annotator.toP) (ofP := Annotator.ofP) .here hd (fun _ => rfl) (fun _ _ => rfl)),
    (struct_member (F := J.annotatorFields) (toP := Annotator.toP) (ofP := Annotator.ofP) (.there .here) hd (fun _ => rfl) (fun _ _ => rfl)),
    (struct_member (F := J.annotatorFields) (toP := Annotator.toP) (ofP := Annotator.ofP) (.there (.there .here)) hd (fun _ => rfl) (fun _ _ => rfl)),
    (struct_member (F := J.annotatorFields) (toP := Annotator.toP) (ofP := Annotator.ofP) (.there (.there (.there .here))) hd (fun _ => rfl) (fun _ _ => rfl))⟩

/-- cyclonedx.go:51-58 -/
theorem json_members_annotation :
    Object J.annotation ["bom-ref", "subjects", "annotator", "timestamp", "text", "signature"] ∧
    Member J.annotation "bom-ref" false JCodec.string (fun x => x.bomRef)
      (fun (x : Annotation) v => { x with bomRef := v }) ∧
    Member J.annotation "subjects" false (JCodec.pslice J.bomReference) (fun x => x.subjects)
      (fun (x : Annotation) v => { x with subjects := v }) ∧
    Member J.annotation "annotator" false (JCodec.option J.annotator) (fun x => x.annotator)
      (fun (x : Annotation) v => { x with annotator := v }) ∧
    Member J.annotation "timestamp" false JCodec.string (fun x => x.timestamp)
      (fun (x : Annotation) v => { x with timestamp := v }) ∧
    Member J.annotation "text" false JCodec.string (fun x => x.text)
      (fun (x : Annotation) v => { x with text := v }) ∧
    Member J.annotation "signature" false (JCodec.option J.jsfSignature) (fun x => x.signature)
      (fun (x : Annotation) v => { x with signature := v }) := by
  have hd : JFields.NamesDistinct J.annotationFields :=
    show (List.map Json.foldKey ["bom-ref", "subjects", "annotator", "timestamp", "text", "signature"]).Nodup by decide +kernel
  have ho := struct_object J.annotationFields Annotation.toP Annotation.ofP (fun s => by cases s; rfl) (fun _ => rfl) ["bom-ref", "subjects", "annotator", "timestamp", "text", "signature"] rfl
  exact ⟨ho,
    (struct_member (F := J.annotationFields) (toP := Annotation.toP) (ofP := Annotation.ofP) .here hd (fun _ => rfl) (fun _ _ => rfl)),
    (struct_member (F := J.annotationFields) (toP := Annotation.toP) (ofP := Annotation.ofP) (.there .here) hd (fun _ => rfl) (fun _ _ => rfl)),
    (struct_member (F := J.annotationFields) (toP := Annotation.toP) (ofP := Annotation.ofP) (.there (.there .here)) hd (fun _ => rfl) (fun _ _ => rfl)),
    (struct_member (F := J.annotationFields) (toP := Annotation.toP) (ofP := Annotation.ofP) (.there (.there (.there .here))) hd (fun _ => rfl) (fun _ _ => rfl)),
    (struct_member (F := J.annotationFields) (toP := Annotation.toP) (ofP := Annotation.ofP) (.there (.there (.there (.there .here)))) hd (fun _ => rfl) (fun _ _ => rfl)),
    (struct_member (F := J.annotationFields) (toP := Annotation.toP) (ofP := Annotation.ofP) (.there (.there (.there (.there (.there .here))))) hd (fun _ => rfl) (fun _ _ => rfl))⟩

/-- cyclonedx.go:67-71 -/
theorem json_members_assessor :
    Object J.assessor ["bom-ref", "thirdParty", "organization"] ∧
    Member J.assessor "bom-ref" false J.bomReference (fun x => x.bomRef)
      (fun (x : Assessor) v => { x with bomRef := v }) ∧
    Member J.assessor "thirdParty" false JCodec.bool (fun x => x.thirdParty)
      (fun (x : Assessor) v => { x with thirdParty := v }) ∧
    Member J.assessor "organization" false (JCodec.option J.organizationalEntity) (fun x => x.organization)
      (fun (x : Assessor) v => { x with organization := v }) := by
  have hd : JFields.NamesDistinct J.assessorFields :=
    show (List.map Json.foldKey ["bom-ref", "thirdParty", "organization"]).Nodup by decide +kernel
  have ho := struct_object J.assessorFields Assessor.toP Assessor.ofP (fun s => by cases s; rfl) (fun _ => rfl) ["bom-ref", "thirdParty", "organization"] rfl
  exact ⟨ho,
    (struct_member (F := J.assessorFields) (toP := Assessor.toP) (ofP := Assessor.ofP) .here hd (fun _ => rfl) (fun _ _ => rfl)),
    (struct_member (F := J.assessorFields) (toP := Assessor.toP) (ofP := Assessor.ofP) (.there .here) hd (fun _ => rfl) (fun _ _ => rfl)),
    (struct_member (F := J.assessorFields) (toP := Assessor.toP) (ofP := Assessor.ofP) (.there (.there .here)) hd (fun _ => rfl) (fun _ _ => rfl))⟩

/-- cyclonedx.go:94-98 -/
theorem json_members_attestationConformance :
    Object J.attestationConformance ["score", "rationale", "mitigationStrategies"] ∧
    Member J.attestationConformance "score" false (JCodec.option JCodec.f64) (fun x => x.score)
      (fun (x : AttestationConformance) v => { x with score := v }) ∧
    Member J.attestationConformance "rationale" false JCodec.string (fun x => x.rationale)
      (fun (x : AttestationConformance) v => { x with rationale := v }) ∧
    Member J.attestationConformance "mitigationStrategies" false (JCodec.pslice J.bomReference) (fun x => x.mitigationStrategies)
      (fun (x : AttestationConformance) v => { x with mitigationStrategies := v }) := by
  have hd : JFields.NamesDistinct J.attestationConformanceFields :=
    show (List.map Json.foldKey ["score", "rationale", "mitigationStrategies"]).Nodup by decide +kernel
  have ho := struct_object J.attestationConformanceFields AttestationConformance.toP AttestationConformance.ofP (fun s => by cases s; rfl) (fun _ => rfl) ["score", "rationale", "mitigationStrategies"] rfl
  exact ⟨ho,
    (struct_member (F := J.attestationConformanceFields) (toP := AttestationConformance.toP) (ofP := AttestationConformance.ofP) .here hd (fun _ => rfl) (fun _ _ => rfl)),
    (struct_member (F := J.attestationConformanceFields) (toP := AttestationConformance.toP) (ofP := AttestationConformance.ofP) (.there .here) hd (fun _ => rfl) (fun _ _ => rfl)),
    (struct_member (F := J.attestationConformanceFields) (toP := AttestationConformance.toP) (ofP := AttestationConformance.ofP) (.there (.there .here)) hd (fun _ => rfl) (fun _ _ => rfl))⟩

/-- cyclonedx.go:100-103 -/
theorem json_members_attestationConfidence :
    Object J.attestationConfidence ["score", "rationale"] ∧
    Member J.attestationConfidence "score" false (JCodec.option JCodec.f64) (fun x => x.score)
      (fun (x : AttestationConfidence) v => { x with score := v }) ∧
    Member J.attestationConfidence "rationale" false JCodec.string (fun x => x.rationale)
      (fun (x : AttestationConfidence) v => { x with rationale := v }) := by
  have hd : JFields.NamesDistinct J.attestationConfidenceFields :=
    show (List.map Json.foldKey ["score", "rationale"]).Nodup by decide +kernel
  have ho := struct_object J.attestationConfidenceFields AttestationConfidence.toP AttestationConfidence.ofP (fun s => by cases s; rfl) (fun _ => rfl) ["score", "rationale"] rfl
  exact ⟨ho,
    (struct_member (F := J.attestationConfidenceFields) (toP := AttestationConfidence.toP) (ofP := AttestationConfidence.ofP) .here hd (fun _ => rfl) (fun _ _ => rfl)),
    (struct_member (F := J.attestationConfidenceFields) (toP := AttestationConfidence.toP) (ofP := AttestationConfidence.ofP) (.there .here) hd (fun _ => rfl) (fun _ _ => rfl))⟩

/-- cyclonedx.go:86-92 -/
theorem json_members_attestationMap :
    Object J.attestationMap ["requirement", "claims", "counterClaims", "conformance", "confidence"] ∧
    Member J.attestationMap "requirement" false JCodec.string (fun x => x.requirement)
      (fun (x : AttestationMap) v => { x with requirement := v }) ∧
    Member J.attestationMap "claims" false (JCodec.pslice J.bomReference) (fun x => x.claims)
      (fun (x : AttestationMap) v => { x with claims := v }) ∧
    Member J.attestationMap "counterClaims" false (JCodec.pslice J.bomReference) (fun x => x.counterClaims)
      (fun (x : AttestationMap) v => { x with counterClaims := v }) ∧
    Member J.attestationMap "conformance" false (JCodec.option J.attestationConformance) (fun x => x.conformance)
      (fun (x : AttestationMap) v => { x with conformance := v }) ∧
    Member J.attestationMap "confidence" false (JCodec.option J.attestationConfidence) (fun x => x.confidence)
      (fun (x : AttestationMap) v => { x with confidence := v }) := by
  have hd : JFields.NamesDistinct J.attestationMapFields :=
    show (List.map Json.foldKey ["requirement", "claims", "counterClaims", "conformance", "confidence"]).Nodup by decide +kernel
  have ho := struct_object J.attestationMapFields AttestationMap.toP AttestationMap.ofP (fun s => by cases s; rfl) (fun _ => rfl) ["requirement", "claims", "counterClaims", "conformance", "confidence"] rfl
  exact ⟨ho,
    (struct_member (F := J.attestationMapFields) (toP := AttestationMap.toP) (ofP := AttestationMap.ofP) .here hd (fun _ => rfl) (fun _ _ => rfl)),
    (struct_member (F := J.attestationMapFields) (toP := AttestationMap.toP) (ofP := AttestationMap.ofP) (.there .here) hd (fun _ => rfl) (fun _ _ => rfl)),
    (struct_member (F := J.attestationMapFields) (toP := AttestationMap.toP) (ofP := AttestationMap.ofP) (.there (.there .here)) hd (fun _ => rfl) (fun _ _ => rfl)),
    (struct_member (F := J.attestationMapFields) (toP := AttestationMap.toP) (ofP := AttestationMap.ofP) (.there (.there (.there .here))) hd (fun _ => rfl) (fun _ _ => rfl)),
    (struct_member (F := J.attestationMapFields) (toP := AttestationMap.toP) (ofP := AttestationMap.ofP) (.there (.there (.there (.there .here)))) hd (fun _ => rfl) (fun _ _ => rfl))⟩

/-- cyclonedx.go:79-84 -/
theorem json_members_attestation :
    Object J.attestation ["summary", "assessor", "map", "signature"] ∧
    Member J.attestation "summary" false JCodec.string (fun x => x.summary)
      (fun (x : Attestation) v => { x with summary := v }) ∧
    Member J.attestation "assessor" false J.bomReference (fun x => x.assessor)
      (fun (x : Attestation) v => { x with assessor := v }) ∧
    Member J.attestation "map" false (JCodec.pslice J.attestationMap) (fun x => x.map)
      (fun (x : Attestation) v => { x with map := v }) ∧
    Member J.attestation "signature" false (JCodec.option J.jsfSignature) (fun x => x.signature)
      (fun (x : Attestation) v => { x with signature := v }) := by
  have hd : JFields.NamesDistinct J.attestationFields :=
    show (List.map Json.foldKey ["summary", "assessor", "map", "signature"]).Nodup by decide +kernel
  have ho := struct_object J.attestationFields Attestation.toP Attestation.ofP (fun s => by cases s; rfl) (fun _ => rfl) ["summary", "assessor", "map", "signature"] rfl
  exact ⟨ho,
    (struct_member (F := J.attestationFields) (toP := Attestation.toP) (ofP := Attestation.ofP) .here hd (fun _ => rfl) (fun _ _ => rfl)),
    (struct_member (F := J.attestationFields) (toP := Attestation.toP) (ofP := Attestation.ofP) (.there .here) hd (fun _ => rfl) (fun _ _ => rfl)),
    (struct_member (F := J.attestationFields) (toP := Attestation.toP) (ofP := Attestation.ofP) (.there (.there .here)) hd (fun _ => rfl) (fun _ _ => rfl)),
    (struct_member (F := J.attestationFields) (toP := Attestation.toP) (ofP := Attestation.ofP) (.there (.there (.there .here))) hd (fun _ => rfl) (fun _ _ => rfl))⟩

/-- cyclonedx.go:321-328 -/
theorem json_members_composition :
    Object J.composition ["bom-ref", "aggregate", "assemblies", "dependencies", "vulnerabilities", "signature"] ∧
    Member J.composition "bom-ref" false JCodec.string (fun x => x.bomRef)
      (fun (x : Composition) v => { x with bomRef := v }) ∧
    Member J.composition "aggregate" true JCodec.string (fun x => x.aggregate)
      (fun (x : Composition) v => { x with aggregate := v }) ∧
    Member J.composition "assemblies" false (JCodec.pslice J.bomReference) (fun x => x.assemblies)
      (fun (x : Composition) v => { x with assemblies := v }) ∧
    Member J.composition "dependencies" false (JCodec.pslice J.bomReference) (fun x => x.dependencies)
      (fun (x : Composition) v => { x with dependencies := v }) ∧
    Member J.composition "vulnerabilities" false (JCodec.pslice J.bomReference) (fun x => x.vulnerabilities)
      (fun (x : Composition) v => { x with vulnerabilities := v }) ∧
    Member J.composition "signature" false (JCodec.option J.jsfSignature) (fun x => x.signature)
      (fun (x : Composition) v => { x with signature := v }) := by
  have hd : JFields.NamesDistinct J.compositionFields :=
    show (List.map Json.foldKey ["bom-ref", "aggregate", "assemblies", "dependencies", "vulnerabilities", "signature"]).Nodup by decide +kernel
  have ho := struct_object J.compositionFields Composition.toP Composition.ofP (fun s => by cases s; rfl) (fun _ => rfl) ["bom-ref", "aggregate", "assemblies", "dependencies", "vulnerabilities", "signature"] rfl
  exact ⟨ho,
    (struct_member (F := J.compositionFields) (toP := Composition.toP) (ofP := Composition.ofP) .here hd (fun _ => rfl) (fun _ _ => rfl)),
    (struct_member (F := J.compositionFields) (toP := Composition.toP) (ofP := Composition.ofP) (.there .here) hd (fun _ => rfl) (fun _ _ => rfl)),
    (struct_member (F := J.compositionFields) (toP := Composition.toP) (ofP := Composition.ofP) (.there (.there .here)) hd (fun _ => rfl) (fun _ _ => rfl)),
    (struct_member (F := J.compositionFields) (toP := Composition.toP) (ofP := Composition.ofP) (.there (.there (.there .here))) hd (fun _ => rfl) (fun _ _ => rfl)),
    (struct_member (F := J.compositionFields) (toP := Composition.toP) (ofP := Composition.ofP) (.there (.there (.there (.there .here)))) hd (fun _ => rfl) (fun _ _ => rfl)),
    (struct_member (F := J.compositionFields) (toP := Composition.toP) (ofP := Composition.ofP) (.there (.there (.there (.there (.there .here))))) hd (fun _ => rfl) (fun _ _ => rfl))⟩

/-- cyclonedx.go:193-203 -/
theorem json_members_claim :
    Object J.claim ["bom-ref", "target", "predicate", "mitigationStrategies", "reasoning", "evidence", "counterEvidence", "externalReferences", "signature"] ∧
    Member J.claim "bom-ref" false JCodec.string (fun x => x.bomRef)
      (fun (x : Claim) v => { x with bomRef := v }) ∧
    Member J.claim "target" false J.bomReference (fun x => x.target)
      (fun (x : Claim) v => { x with target := v }) ∧
    Member J.claim "predicate" false JCodec.string (fun x => x.predicate)
      (fun (x : Claim) v => { x with predicate := v }) ∧
    Member J.claim "mitigationStrategies" false (JCodec.pslice J.bomReference) (fun x => x.mitigationStrategies)
      (fun (x : Claim) v => { x with mitigationStrategies := v }) ∧
    Member J.claim "reasoning" false JCodec.string (fun x => x.reasoning)
      (fun (x : Claim) v => { x with reasoning := v }) ∧
    Member J.claim "evidence" false (JCodec.pslice J.bomReference) (fun x => x.evidence)
      (fun (x : Claim) v => { x with evidence := v }) ∧
    Member J.claim "counterEvidence" false (JCodec.pslice J.bomReference) (fun x => x.counterEvidence)
      (fun (x : Claim) v => { x with counterEvidence := v }) ∧
    Member J.claim "externalReferences" false (JCodec.pslice J.externalReference) (fun x => x.externalReferences)
      (fun (x : Claim) v => { x with externalReferences := v }) ∧
    Member J.claim "signature" false (JCodec.option J.jsfSignature) (fun x => x.signature)
      (fun (x : Claim) v => { x with signature := v }) := by
  have hd : JFields.NamesDistinct J.claimFields :=
    show (List.map Json.foldKey ["bom-ref", "target", "predicate", "mitigationStrategies", "reasoning", "evidence", "counterEvidence", "externalReferences", "signature"]).Nodup by decide +kernel
  have ho := struct_object J.claimFields Claim.toP Claim.ofP (fun s => by cases s; rfl) (fun _ => rfl) ["bom-ref", "target", "predicate", "mitigationStrategies", "reasoning", "evidence", "counterEvidence", "externalReferences", "signature"] rfl
  exact ⟨ho,
    (struct_member (F := J.claimFields) (toP := Claim.toP) (ofP := Claim.ofP) .here hd (fun _ => rfl) (fun _ _ => rfl)),
    (struct_member (F := J.claimFields) (toP := Claim.toP) (ofP := Claim.ofP) (.there .here) hd (fun _ => rfl) (fun _ _ => rfl)),
    (struct_member (F := J.claimFields) (toP := Claim.toP) (ofP := Claim.ofP) (.there (.there .here)) hd (fun _ => rfl) (fun _ _ => rfl)),
    (struct_member (F := J.claimFields) (toP := Claim.toP) (ofP := Claim.ofP) (.there (.there (.there .here))) hd (fun _ => rfl) (fun _ _ => rfl)),
    (struct_member (F := J.claimFields) (toP := Claim.toP) (ofP := Claim.ofP) (.there (.there (.there (.there .here)))) hd (fun _ => rfl) (fun _ _ => rfl)),
    (struct_member (F := J.claimFields) (toP := Claim.toP) (ofP := Claim.ofP) (.there (.there (.there (.there (.there .here))))) hd (fun _ => rfl) (fun _ _ => rfl)),
    (struct_member (F := J.claimFields) (toP := Claim.toP) (ofP := Claim.ofP) (.there (.there (.there (.there (.there (.there .here)))))) hd (fun _ => rfl) (fun _ _ => rfl)),
    (struct_member (F := J.claimFields) (toP := Claim.toP) (ofP := Claim.ofP) (.there (.there (.there (.there (.there (.there (.there .here))))))) hd (fun _ => rfl) (fun _ _ => rfl)),
    (struct_member (F := J.claimFields) (toP := Claim.toP) (ofP := Claim.ofP) (.there (.there (.there (.there (.there (.there (.there (.there .here)))))))) hd (fun _ => rfl) (fun _ _ => rfl))⟩

/-- cyclonedx.go:619-622 -/
theorem json_members_evidenceDataContents :
    Object J.evidenceDataContents ["attachment", "url"] ∧
    Member J.evidenceDataContents "attachment" false (JCodec.option J.attachedText) (fun x => x.attachment)
      (fun (x : EvidenceDataContents) v => { x with attachment := v }) ∧
    Member J.evidenceDataContents "url" false JCodec.string (fun x => x.url)
      (fun (x : EvidenceDataContents) v => { x with url := v }) := by
  have hd : JFields.NamesDistinct J.evidenceDataContentsFields :=
    show (List.map Json.foldKey ["attachment", "url"]).Nodup by decide +kernel
  have ho := struct_object J.evidenceDataContentsFields EvidenceDataContents.toP EvidenceDataContents.ofP (fun s => by cases s; rfl) (fun _ => rfl) ["attachment", "url"] rfl
  exact ⟨ho,
    (struct_member (F := J.evidenceDataContentsFields) (toP := EvidenceDataContents.toP) (ofP := EvidenceDataContents.ofP) .here hd (fun _ => rfl) (fun _ _ => rfl)),
    (struct_member (F := J.evidenceDataContentsFields) (toP := EvidenceDataContents.toP) (ofP := EvidenceDataContents.ofP) (.there .here) hd (fun _ => rfl) (fun _ _ => rfl))⟩

/-- cyclonedx.go:611-617 -/
theorem json_members_evidenceData :
    Object J.evidenceData ["name", "contents", "classification", "sensitiveData", "governance"] ∧
    Member J.evidenceData "name" false JCodec.string (fun x => x.name)
      (fun (x : EvidenceData) v => { x with name := v }) ∧
    Member J.evidenceData "contents" false (JCodec.option J.evidenceDataContents) (fun x => x.contents)
      (fun (x : EvidenceData) v => { x with contents := v }) ∧
    Member J.evidenceData "classification" false (JCodec.option J.dataClassification) (fun x => x.classification)
      (fun (x : EvidenceData) v => { x with classification := v }) ∧
    Member J.evidenceData "sensitiveData" false (JCodec.pslice JCodec.string) (fun x => x.sensitiveData)
      (fun (x : EvidenceData) v => { x with sensitiveData := v }) ∧
    Member J.evidenceData "governance" false (JCodec.option J.dataGovernance) (fun x => x.governance)
      (fun (x : EvidenceData) v => { x with governance := v }) := by
  have hd : JFields.NamesDistinct J.evidenceDataFields :=
    show (List.map Json.foldKey ["name", "contents", "classification", "sensitiveData", "governance"]).Nodup by decide +kernel
  have ho := struct_object J.evidenceDataFields EvidenceData.toP EvidenceData.ofP (fun s => by cases s; rfl) (fun _ => rfl) ["name", "contents", "classification", "sensitiveData", "governance"] rfl
  exact ⟨ho,
    (struct_member (F := J.evidenceDataFields) (toP := EvidenceData.toP) (ofP := EvidenceData.ofP) .here hd (fun _ => rfl) (fun _ _ => rfl)),
    (struct_member (F := J.evidenceDataFields) (toP := EvidenceData.toP) (ofP := EvidenceData.ofP) (.there .here) hd (fun _ => rfl) (fun _ _ => rfl)),
    (struct_member (F := J.evidenceDataFields) (toP := EvidenceData.toP) (ofP := EvidenceData.ofP) (.there (.there .here)) hd (fun _ => rfl) (fun _ _ => rfl)),
    (struct_member (F := J.evidenceDataFields) (toP := EvidenceData.toP) (ofP := EvidenceData.ofP) (.there (.there (.there .here))) hd (fun _ => rfl) (fun _ _ => rfl)),
    (struct_member (F := J.evidenceDataFields) (toP := EvidenceData.toP) (ofP := EvidenceData.ofP) (.there (.there (.there (.there .here)))) hd (fun _ => rfl) (fun _ _ => rfl))⟩

/-- cyclonedx.go:586-596 -/
theorem json_members_declarationEvidence :
    Object J.declarationEvidence ["bom-ref", "propertyName", "description", "data", "created", "expires", "author", "reviewer", "signature"] ∧
    Member J.declarationEvidence "bom-ref" false JCodec.string (fun x => x.bomRef)
      (fun (x : DeclarationEvidence) v => { x with bomRef := v }) ∧
    Member J.declarationEvidence "propertyName" false JCodec.string (fun x => x.propertyName)
      (fun (x : DeclarationEvidence) v => { x with propertyName := v }) ∧
    Member J.declarationEvidence "description" false JCodec.string (fun x => x.description)
      (fun (x : DeclarationEvidence) v => { x with description := v }) ∧
    Member J.declarationEvidence "data" false (JCodec.pslice J.evidenceData) (fun x => x.data)
      (fun (x : DeclarationEvidence) v => { x with data := v }) ∧
    Member J.declarationEvidence "created" false JCodec.string (fun x => x.created)
      (fun (x : DeclarationEvidence) v => { x with created := v }) ∧
    Member J.declarationEvidence "expires" false JCodec.string (fun x => x.expires)
      (fun (x : DeclarationEvidence) v => { x with expires := v }) ∧
    Member J.declarationEvidence "author" false (JCodec.option J.organizationalContact) (fun x => x.author)
      (fun (x : DeclarationEvidence) v => { x with author := v }) ∧
    Member J.declarationEvidence "reviewer" false (JCodec.option J.organizationalContact) (fun x => x.reviewer)
      (fun (x : DeclarationEvidence) v => { x with reviewer := v }) ∧
    Member J.declarationEvidence "signature" false (JCodec.option J.jsfSignature) (fun x => x.signature)
      (fun (x : DeclarationEvidence) v => { x with signature := v }) := by
  have hd : JFields.NamesDistinct J.declarationEvidenceFields :=
    show (List.map Json.foldKey ["bom-ref", "propertyName", "description", "data", "created", "expires", "author", "reviewer", "signature"]).Nodup by decide +kernel
  have ho := struct_object J.declarationEvidenceFields DeclarationEvidence.toP DeclarationEvidence.ofP (fun s => by cases s; rfl) (fun _ => rfl) ["bom-ref", "propertyName", "description", "data", "created", "expires", "author", "reviewer", "signature"] rfl
  exact ⟨ho,
    (struct_member (F := J.declarationEvidenceFields) (toP := DeclarationEvidence.toP) (ofP := DeclarationEvidence.ofP) .here hd (fun _ => rfl) (fun _ _ => rfl)),
    (struct_member (F := J.declarationEvidenceFields) (toP := DeclarationEvidence.toP) (ofP := DeclarationEvidence.ofP) (.there .here) hd (fun _ => rfl) (fun _ _ => rfl)),
    (struct_member (F := J.declarationEvidenceFields) (toP := DeclarationEvidence.toP) (ofP := DeclarationEvidence.ofP) (.there (.there .here)) hd (fun _ => rfl) (fun _ _ => rfl)),
    (struct_member (F := J.declarationEvidenceFields) (toP := DeclarationEvidence.toP) (ofP := DeclarationEvidence.ofP) (.there (.there (.there .here))) hd (fun _ => rfl) (fun _ _ => rfl)),
    (struct_member (F := J.declarationEvidenceFields) (toP := DeclarationEvidence.toP) (ofP := DeclarationEvidence.ofP) (.there (.there (.there (.there .here)))) hd (fun _ => rfl) (fun _ _ => rfl)),
    (struct_member (F := J.declarationEvidenceFields) (toP := DeclarationEvidence.toP) (ofP := DeclarationEvidence.ofP) (.there (.there (.there (.there (.there .here))))) hd (fun _ => rfl) (fun _ _ => rfl)),
    (struct_member (F := J.declarationEvidenceFields) (toP := DeclarationEvidence.toP) (ofP := DeclarationEvidence.ofP) (.there (.there (.there (.there (.there (.there .here)))))) hd (fun _ => rfl) (fun _ _ => rfl)),
    (struct_member (F := J.declarationEvidenceFields) (toP := DeclarationEvidence.toP) (ofP := DeclarationEvidence.ofP) (.there (.there (.there (.there (.there (.there (.there .here))))))) hd (fun _ => rfl) (fun _ _ => rfl)),
    (struct_member (F := J.declarationEvidenceFields) (toP := DeclarationEvidence.toP) (ofP := DeclarationEvidence.ofP) (.there (.there (.there (.there (.there (.there (.there (.there .here)))))))) hd (fun _ => rfl) (fun _ _ => rfl))⟩

/-- cyclonedx.go:624-628 -/
theorem json_members_targets :
    Object J.targets ["organizations", "components", "services"] ∧
    Member J.targets "organizations" false (JCodec.pslice J.organizationalEntity) (fun x => x.organizations)
      (fun (x : Targets) v => { x with organizations := v }) ∧
    Member J.targets "components" false (JCodec.pslice J.component) (fun x => x.components)
      (fun (x : Targets) v => { x with components := v }) ∧
    Member J.targets "services" false (JCodec.pslice J.service) (fun x => x.services)
      (fun (x : Targets) v => { x with services := v }) := by
  have hd : JFields.NamesDistinct J.targetsFields :=
    show (List.map Json.foldKey ["organizations", "components", "services"]).Nodup by decide +kernel
  have ho := struct_object J.targetsFields Targets.toP Targets.ofP (fun s => by cases s; rfl) (fun _ => rfl) ["organizations", "components", "services"] rfl
  exact ⟨ho,
    (struct_member (F := J.targetsFields) (toP := Targets.toP) (ofP := Targets.ofP) .here hd (fun _ => rfl) (fun _ _ => rfl)),
    (struct_member (F := J.targetsFields) (toP := Targets.toP) (ofP := Targets.ofP) (.there .here) hd (fun _ => rfl) (fun _ _ => rfl)),
    (struct_member (F := J.targetsFields) (toP := Targets.toP) (ofP := Targets.ofP) (.there (.there .here)) hd (fun _ => rfl) (fun _ _ => rfl))⟩

/-- cyclonedx.go:636-642 -/
theorem json_members_signatory :
    Object J.signatory ["name", "role", "signature", "organization", "externalReference"] ∧
    Member J.signatory "name" false JCodec.string (fun x => x.name)
      (fun (x : Signatory) v => { x with name := v }) ∧
    Member J.signatory "role" false JCodec.string (fun x => x.role)
      (fun (x : Signatory) v => { x with role := v }) ∧
    Member J.signatory "signature" false (JCodec.option J.jsfSignature) (fun x => x.signature)
      (fun (x : Signatory) v => { x with signature := v }) ∧
    Member J.signatory "organization" false (JCodec.option J.organizationalEntity) (fun x => x.organization)
      (fun (x : Signatory) v => { x with organization := v }) ∧
    Member J.signatory "externalReference" false (JCodec.option J.externalReference) (fun x => x.externalReference)
      (fun (x : Signatory) v => { x with externalReference := v }) := by
  have hd : JFields.NamesDistinct J.signatoryFields :=
    show (List.map Json.foldKey ["name", "role", "signature", "organization", "externalReference"]).Nodup by decide +kernel
  have ho := struct_object J.signatoryFields Signatory.toP Signatory.ofP (fun s => by cases s; rfl) (fun _ => rfl) ["name", "role", "signature", "organization", "externalReference"] rfl
  exact ⟨ho,
    (struct_member (F := J.signatoryFields) (toP := Signatory.toP) (ofP := Signatory.ofP) .here hd (fun _ => rfl) (fun _ _ => rfl)),
    (struct_member (F := J.signatoryFields) (toP := Signatory.toP) (ofP := Signatory.ofP) (.there .here) hd (fun _ => rfl) (fun _ _ => rfl)),
    (struct_member (F := J.signatoryFields) (toP := Signatory.toP) (ofP := Signatory.ofP) (.there (.there .here)) hd (fun _ => rfl) (fun _ _ => rfl)),
    (struct_member (F := J.signatoryFields) (toP := Signatory.toP) (ofP := Signatory.ofP) (.there (.there (.there .here))) hd (fun _ => rfl) (fun _ _ => rfl)),
    (struct_member (F := J.signatoryFields) (toP := Signatory.toP) (ofP := Signatory.ofP) (.there (.there (.there (.there .here)))) hd (fun _ => rfl) (fun _ _ => rfl))⟩

/-- cyclonedx.go:630-634 -/
theorem json_members_affirmation :
    Object J.affirmation ["statement", "signatories", "signature"] ∧
    Member J.affirmation "statement" false JCodec.string (fun x => x.statement)
      (fun (x : Affirmation) v => { x with statement := v }) ∧
    Member J.affirmation "signatories" false (JCodec.pslice J.signatory) (fun x => x.signatories)
      (fun (x : Affirmation) v => { x with signatories := v }) ∧
    Member J.affirmation "signature" false (JCodec.option J.jsfSignature) (fun x => x.signature)
      (fun (x : Affirmation) v => { x with signature := v }) := by
  have hd : JFields.NamesDistinct J.affirmationFields :=
    show (List.map Json.foldKey ["statement", "signatories", "signature"]).Nodup by decide +kernel
  have ho := struct_object J.affirmationFields Affirmation.toP Affirmation.ofP (fun s => by cases s; rfl) (fun _ => rfl) ["statement", "signatories", "signature"] rfl
  exact ⟨ho,
    (struct_member (F := J.affirmationFields) (toP := Affirmation.toP) (ofP := Affirmation.ofP) .here hd (fun _ => rfl) (fun _ _ => rfl)),
    (struct_member (F := J.affirmationFields) (toP := Affirmation.toP) (ofP := Affirmation.ofP) (.there .here) hd (fun _ => rfl) (fun _ _ => rfl)),
    (struct_member (F := J.affirmationFields) (toP := Affirmation.toP) (ofP := Affirmation.ofP) (.there (.there .here)) hd (fun _ => rfl) (fun _ _ => rfl))⟩

/-- cyclonedx.go:576-584 -/
theorem json_members_declarations :
    Object J.declarations ["assessors", "attestations", "claims", "evidence", "targets", "affirmation", "signature"] ∧
    Member J.declarations "assessors" false (JCodec.pslice J.assessor) (fun x => x.assessors)
      (fun (x : Declarations) v => { x with assessors := v }) ∧
    Member J.declarations "attestations" false (JCodec.pslice J.attestation) (fun x => x.attestations)
      (fun (x : Declarations) v => { x with attestations := v }) ∧
    Member J.declarations "claims" false (JCodec.pslice J.claim) (fun x => x.claims)
      (fun (x : Declarations) v => { x with claims := v }) ∧
    Member J.declarations "evidence" false (JCodec.pslice J.declarationEvidence) (fun x => x.evidence)
      (fun (x : Declarations) v => { x with evidence := v }) ∧
    Member J.declarations "targets" false (JCodec.option J.targets) (fun x => x.targets)
      (fun (x : Declarations) v => { x with targets := v }) ∧
    Member J.declarations "affirmation" false (JCodec.option J.affirmation) (fun x => x.affirmation)
      (fun (x : Declarations) v => { x with affirmation := v }) ∧
    Member J.declarations "signature" false (JCodec.option J.jsfSignature) (fun x => x.signature)
      (fun (x : Declarations) v => { x with signature := v }) := by
  have hd : JFields.NamesDistinct J.declarationsFields :=
    show (List.map Json.foldKey ["assessors", "attestations", "claims", "evidence", "targets", "affirmation", "signature"]).Nodup by decide +kernel
  have ho := struct_object J.declarationsFields Declarations.toP Declarations.ofP (fun s => by cases s; rfl) (fun _ => rfl) ["assessors", "attestations", "claims", "evidence", "targets", "affirmation", "signature"] rfl
  exact ⟨ho,
    (struct_member (F := J.declarationsFields) (toP := Declarations.toP) (ofP := Declarations.ofP) .here hd (fun _ => rfl) (fun _ _ => rfl)),
    (struct_member (F := J.declarationsFields) (toP := Declarations.toP) (ofP := Declarations.ofP) (.there .here) hd (fun _ => rfl) (fun _ _ => rfl)),
    (struct_member (F := J.declarationsFields) (toP := Declarations.toP) (ofP := Declarations.ofP) (.there (.there .here)) hd (fun _ => rfl) (fun _ _ => rfl)),
    (struct_member (F := J.declarationsFields) (toP := Declarations.toP) (ofP := Declarations.ofP) (.there (.there (.there .here))) hd (fun _ => rfl) (fun _ _ => rfl)),
    (struct_member (F := J.declarationsFields) (toP := Declarations.toP) (ofP := Declarations.ofP) (.there (.there (.there (.there .here)))) hd (fun _ => rfl) (fun _ _ => rfl)),
    (struct_member (F := J.declarationsFields) (toP := Declarations.toP) (ofP := Declarations.ofP) (.there (.there (.there (.there (.there .here))))) hd (fun _ => rfl) (fun _ _ => rfl)),
    (struct_member (F := J.declarationsFields) (toP := Declarations.toP) (ofP := Declarations.ofP) (.there (.there (.there (.there (.there (.there .here)))))) hd (fun _ => rfl) (fun _ _ => rfl))⟩

/-- cyclonedx.go:1802-1806 -/
theorem json_members_priorityApplication :
    Object J.priorityApplication ["applicationNumber", "jurisdiction", "filingDate"] ∧
    Member J.priorityApplication "applicationNumber" true JCodec.string (fun x => x.applicationNumber)
      (fun (x : PriorityApplication) v => { x with applicationNumber := v }) ∧
    Member J.priorityApplication "jurisdiction" true JCodec.string (fun x => x.jurisdiction)
      (fun (x : PriorityApplication) v => { x with jurisdiction := v }) ∧
    Member J.priorityApplication "filingDate" true JCodec.string (fun x => x.filingDate)
      (fun (x : PriorityApplication) v => { x with filingDate := v }) := by
  have hd : JFields.NamesDistinct J.priorityApplicationFields :=
    show (List.map Json.foldKey ["applicationNumber", "jurisdiction", "filingDate"]).Nodup by decide +kernel
  have ho := struct_object J.priorityApplicationFields PriorityApplication.toP PriorityApplication.ofP (fun s => by cases s; rfl) (fun _ => rfl) ["applicationNumber", "jurisdiction", "filingDate"] rfl
  exact ⟨ho,
    (struct_member (F := J.priorityApplicationFields) (toP := PriorityApplication.toP) (ofP := PriorityApplication.ofP) .here hd (fun _ => rfl) (fun _ _ => rfl)),
    (struct_member (F := J.priorityApplicationFields) (toP := PriorityApplication.toP) (ofP := PriorityApplication.ofP) (.there .here) hd (fun _ => rfl) (fun _ _ => rfl)),
    (struct_member (F := J.priorityApplicationFields) (toP := PriorityApplication.toP) (ofP := PriorityApplication.ofP) (.there (.there .here)) hd (fun _ => rfl) (fun _ _ => rfl))⟩

/-- cyclonedx.go:1743-1758 -/
theorem json_members_patent :
    Object J.patent ["bom-ref", "patentNumber", "applicationNumber", "jurisdiction", "priorityApplication", "publicationNumber", "title", "abstract", "filingDate", "grantDate", "patentExpirationDate", "patentLegalStatus", "patentAssignee", "externalReferences"] ∧
    Member J.patent "bom-ref" false JCodec.string (fun x => x.bomRef)
      (fun (x : Patent) v => { x with bomRef := v }) ∧
    Member J.patent "patentNumber" true JCodec.string (fun x => x.patentNumber)
      (fun (x : Patent) v => { x with patentNumber := v }) ∧
    Member J.patent "applicationNumber" false JCodec.string (fun x => x.applicationNumber)
      (fun (x : Patent) v => { x with applicationNumber := v }) ∧
    Member J.patent "jurisdiction" true JCodec.string (fun x => x.jurisdiction)
      (fun (x : Patent) v => { x with jurisdiction := v }) ∧
    Member J.patent "priorityApplication" false (JCodec.option J.priorityApplication) (fun x => x.priorityApplication)
      (fun (x : Patent) v => { x with priorityApplication := v }) ∧
    Member J.patent "publicationNumber" false JCodec.string (fun x => x.publicationNumber)
      (fun (x : Patent) v => { x with publicationNumber := v }) ∧
    Member J.patent "title" false JCodec.string (fun x => x.title)
      (fun (x : Patent) v => { x with title := v }) ∧
    Member J.patent "abstract" false JCodec.string (fun x => x.abstract)
      (fun (x : Patent) v => { x with abstract := v }) ∧
    Member J.patent "filingDate" false JCodec.string (fun x => x.filingDate)
      (fun (x : Patent) v => { x with filingDate := v }) ∧
    Member J.patent "grantDate" false JCodec.string (fun x => x.grantDate)
      (fun (x : Patent) v => { x with grantDate := v }) ∧
    Member J.patent "patentExpirationDate" false JCodec.string (fun x => x.patentExpirationDate)
      (fun (x : Patent) v => { x with patentExpirationDate := v }) ∧
    Member J.patent "patentLegalStatus" true JCodec.string (fun x => x.patentLegalStatus)
      (fun (x : Patent) v => { x with patentLegalStatus := v }) ∧
    Member J.patent "patentAssignee" false (JCodec.pslice J.organizationalEntityOrContact) (fun x => x.patentAssignee)
      (fun (x : Patent) v => { x with patentAssignee := v }) ∧
    Member J.patent "externalReferences" false (JCodec.pslice J.externalReference) (fun x => x.externalReferences)
      (fun (x : Patent) v => { x with externalReferences := v }) := by
  have hd : JFields.NamesDistinct J.patentFields :=
    show (List.map Json.foldKey ["bom-ref", "patentNumber", "applicationNumber", "jurisdiction", "priorityApplication", "publicationNumber", "title", "abstract", "filingDate", "grantDate", "patentExpirationDate", "patentLegalStatus", "patentAssignee", "externalReferences"]).Nodup by decide +kernel
  have ho := struct_object J.patentFields Patent.toP Patent.ofP (fun s => by cases s; rfl) (fun _ => rfl) ["bom-ref", "patentNumber", "applicationNumber", "jurisdiction", "priorityApplication", "publicationNumber", "title", "abstract", "filingDate", "grantDate", "patentExpirationDate", "patentLegalStatus", "patentAssignee", "externalReferences"] rfl
  exact ⟨ho,
    (struct_member (F := J.patentFields) (toP := Patent.toP) (ofP := Patent.ofP) .here hd (fun _ => rfl) (fun _ _ => rfl)),
    (struct_member (F := J.patentFields) (toP := Patent.toP) (ofP := Patent.ofP) (.there .here) hd (fun _ => rfl) (fun _ _ => rfl)),
    (struct_member (F := J.patentFields) (toP := Patent.toP) (ofP := Patent.ofP) (.there (.there .here)) hd (fun _ => rfl) (fun _ _ => rfl)),
    (struct_member (F := J.patentFields) (toP := Patent.toP) (ofP := Patent.ofP) (.there (.there (.there .here))) hd (fun _ => rfl) (fun _ _ => rfl)),
    (struct_member (F := J.patentFields) (toP := Patent.toP) (ofP := Patent.ofP) (.there (.there (.there (.there .here)))) hd (fun _ => rfl) (fun _ _ => rfl)),
    (struct_member (F := J.patentFields) (toP := Patent.toP) (ofP := Patent.ofP) (.there (.there (.there (.there (.there .here))))) hd (fun _ => rfl) (fun _ _ => rfl)),
    (struct_member (F := J.patentFields) (toP := Patent.toP) (ofP := Patent.ofP) (.there (.there (.there (.there (.there (.there .here)))))) hd (fun _ => rfl) (fun _ _ => rfl)),
    (struct_member (F := J.patentFields) (toP := Patent.toP) (ofP := Patent.ofP) (.there (.there (.there (.there (.there (.there (.there .here))))))) hd (fun _ => rfl) (fun _ _ => rfl)),
    (struct_member (F := J.patentFields) (toP := Patent.toP) (ofP := Patent.ofP) (.there (.there (.there (.there (.there (.there (.there (.there .here)))))))) hd (fun _ => rfl) (fun _ _ => rfl)),
    (struct_member (F := J.patentFields) (toP := Patent.toP) (ofP := Patent.ofP) (.there (.there (.there (.there (.there (.there (.there (.there (.there .here))))))))) hd (fun _ => rfl) (fun _ _ => rfl)),
    (struct_member (F := J.patentFields) (toP := Patent.toP) (ofP := Patent.ofP) (.there (.there (.there (.there (.there (.there (.there (.there (.there (.there .here)))))))))) hd (fun _ => rfl) (fun _ _ => rfl)),
    (struct_member (F := J.patentFields) (toP := Patent.toP) (ofP := Patent.ofP) (.there (.there (.there (.there (.there (.there (.there (.there (.there (.there (.there .here))))))))))) hd (fun _ => rfl) (fun _ _ => rfl)),
    (struct_member (F := J.patentFields) (toP := Patent.toP) (ofP := Patent.ofP) (.there (.there (.there (.there (.there (.there (.there (.there (.there (.there (.there (.there .here)))))))))))) hd (fun _ => rfl) (fun _ _ => rfl)),
    (struct_member (F := J.patentFields) (toP := Patent.toP) (ofP := Patent.ofP) (.there (.there (.there (.there (.there (.there (.there (.there (.there (.there (.there (.there (.there .here))))))))))))) hd (fun _ => rfl) (fun _ _ => rfl))⟩

/-- cyclonedx.go:1761-1767 -/
theorem json_members_patentFamily :
    Object J.patentFamily ["bom-ref", "familyId", "priorityApplication", "members", "externalReferences"] ∧
    Member J.patentFamily "bom-ref" false JCodec.string (fun x => x.bomRef)
      (fun (x : PatentFamily) v => { x with bomRef := v }) ∧
    Member J.patentFamily "familyId" true JCodec.string (fun x => x.familyID)
      (fun (x : PatentFamily) v => { x with familyID := v }) ∧
    Member J.patentFamily "priorityApplication" false (JCodec.option J.priorityApplication) (fun x => x.priorityApplication)
      (fun (x : PatentFamily) v => { x with priorityApplication := v }) ∧
    Member J.patentFamily "members" false (JCodec.pslice J.bomReference) (fun x => x.members)
      (fun (x : PatentFamily) v => { x with members := v }) ∧
    Member J.patentFamily "externalReferences" false (JCodec.pslice J.externalReference) (fun x => x.externalReferences)
      (fun (x : PatentFamily) v => { x with externalReferences := v }) := by
  have hd : JFields.NamesDistinct J.patentFamilyFields :=
    show (List.map Json.foldKey ["bom-ref", "familyId", "priorityApplication", "members", "externalReferences"]).Nodup by decide +kernel
  have ho := struct_object J.patentFamilyFields PatentFamily.toP PatentFamily.ofP (fun s => by cases s; rfl) (fun _ => rfl) ["bom-ref", "familyId", "priorityApplication", "members", "externalReferences"] rfl
  exact ⟨ho,
    (struct_member (F := J.patentFamilyFields) (toP := PatentFamily.toP) (ofP := PatentFamily.ofP) .here hd (fun _ => rfl) (fun _ _ => rfl)),
    (struct_member (F := J.patentFamilyFields) (toP := PatentFamily.toP) (ofP := PatentFamily.ofP) (.there .here) hd (fun _ => rfl) (fun _ _ => rfl)),
    (struct_member (F := J.patentFamilyFields) (toP := PatentFamily.toP) (ofP := PatentFamily.ofP) (.there (.there .here)) hd (fun _ => rfl) (fun _ _ => rfl)),
    (struct_member (F := J.patentFamilyFields) (toP := PatentFamily.toP) (ofP := PatentFamily.ofP) (.there (.there (.there .here))) hd (fun _ => rfl) (fun _ _ => rfl)),
    (struct_member (F := J.patentFamilyFields) (toP := PatentFamily.toP) (ofP := PatentFamily.ofP) (.there (.there (.there (.there .here)))) hd (fun _ => rfl) (fun _ _ => rfl))⟩

/-- cyclonedx.go:1429-1439 -/
theorem json_members_standardRequirement :
    Object J.standardRequirement ["bom-ref", "identifier", "title", "text", "descriptions", "openCre", "parent", "properties", "externalReferences"] ∧
    Member J.standardRequirement "bom-ref" false JCodec.string (fun x => x.bomRef)
      (fun (x : StandardRequirement) v => { x with bomRef := v }) ∧
    Member J.standardRequirement "identifier" false JCodec.string (fun x => x.identifier)
      (fun (x : StandardRequirement) v => { x with identifier := v }) ∧
    Member J.standardRequirement "title" false JCodec.string (fun x => x.title)
      (fun (x : StandardRequirement) v => { x with title := v }) ∧
    Member J.standardRequirement "text" false JCodec.string (fun x => x.text)
      (fun (x : StandardRequirement) v => { x with text := v }) ∧
    Member J.standardRequirement "descriptions" false (JCodec.pslice JCodec.string) (fun x => x.descriptions)
      (fun (x : StandardRequirement) v => { x with descriptions := v }) ∧
    Member J.standardRequirement "openCre" false (JCodec.pslice JCodec.string) (fun x => x.openCRE)
      (fun (x : StandardRequirement) v => { x with openCRE := v }) ∧
    Member J.standardRequirement "parent" false JCodec.string (fun x => x.parent)
      (fun (x : StandardRequirement) v => { x with parent := v }) ∧
    Member J.standardRequirement "properties" false (JCodec.pslice J.property) (fun x => x.properties)
      (fun (x : StandardRequirement) v => { x with properties := v }) ∧
    Member J.standardRequirement "externalReferences" false (JCodec.pslice J.externalReference) (fun x => x.externalReferences)
      (fun (x : StandardRequirement) v => { x with externalReferences := v }) := by
  have hd : JFields.NamesDistinct J.standardRequirementFields :=
    show (List.map Json.foldKey ["bom-ref", "identifier", "title", "text", "descriptions", "openCre", "parent", "properties", "externalReferences"]).Nodup by decide +kernel
  have ho := struct_object J.standardRequirementFields StandardRequirement.toP StandardRequirement.ofP (fun s => by cases s; rfl) (fun _ => rfl) ["bom-ref", "identifier", "title", "text", "descriptions", "openCre", "parent", "properties", "externalReferences"] rfl
  exact ⟨ho,
    (struct_member (F := J.standardRequirementFields) (toP := StandardRequirement.toP) (ofP := StandardRequirement.ofP) .here hd (fun _ => rfl) (fun _ _ => rfl)),
    (struct_member (F := J.standardRequirementFields) (toP := StandardRequirement.toP) (ofP := StandardRequirement.ofP) (.there .here) hd (fun _ => rfl) (fun _ _ => rfl)),
    (struct_member (F := J.standardRequirementFields) (toP := StandardRequirement.toP) (ofP := StandardRequirement.ofP) (.there (.there .here)) hd (fun _ => rfl) (fun _ _ => rfl)),
    (struct_member (F := J.standardRequirementFields) (toP := StandardRequirement.toP) (ofP := StandardRequirement.ofP) (.there (.there (.there .here))) hd (fun _ => rfl) (fun _ _ => rfl)),
    (struct_member (F := J.standardRequirementFields) (toP := StandardRequirement.toP) (ofP := StandardRequirement.ofP) (.there (.there (.there (.there .here)))) hd (fun _ => rfl) (fun _ _ => rfl)),
    (struct_member (F := J.standardRequirementFields) (toP := StandardRequirement.toP) (ofP := StandardRequirement.ofP) (.there (.there (.there (.there (.there .here))))) hd (fun _ => rfl) (fun _ _ => rfl)),
    (struct_member (F := J.standardRequirementFields) (toP := StandardRequirement.toP) (ofP := StandardRequirement.ofP) (.there (.there (.there (.there (.there (.there .here)))))) hd (fun _ => rfl) (fun _ _ => rfl)),
    (struct_member (F := J.standardRequirementFields) (toP := StandardRequirement.toP) (ofP := StandardRequirement.ofP) (.there (.there (.there (.there (.there (.there (.there .here))))))) hd (fun _ => rfl) (fun _ _ => rfl)),
    (struct_member (F := J.standardRequirementFields) (toP := StandardRequirement.toP) (ofP := StandardRequirement.ofP) (.there (.there (.there (.there (.there (.there (.there (.there .here)))))))) hd (fun _ => rfl) (fun _ _ => rfl))⟩

/-- cyclonedx.go:1441-1447 -/
theorem json_members_standardLevel :
    Object J.standardLevel ["bom-ref", "identifier", "title", "description", "requirements"] ∧
    Member J.standardLevel "bom-ref" false JCodec.string (fun x => x.bomRef)
      (fun (x : StandardLevel) v => { x with bomRef := v }) ∧
    Member J.standardLevel "identifier" false JCodec.string (fun x => x.identifier)
      (fun (x : StandardLevel) v => { x with identifier := v }) ∧
    Member J.standardLevel "title" false JCodec.string (fun x => x.title)
      (fun (x : StandardLevel) v => { x with title := v }) ∧
    Member J.standardLevel "description" false JCodec.string (fun x => x.description)
      (fun (x : StandardLevel) v => { x with description := v }) ∧
    Member J.standardLevel "requirements" false (JCodec.pslice JCodec.string) (fun x => x.requirements)
      (fun (x : StandardLevel) v => { x with requirements := v }) := by
  have hd : JFields.NamesDistinct J.standardLevelFields :=
    show (List.map Json.foldKey ["bom-ref", "identifier", "title", "description", "requirements"]).Nodup by decide +kernel
  have ho := struct_object J.standardLevelFields StandardLevel.toP StandardLevel.ofP (fun s => by cases s; rfl) (fun _ => rfl) ["bom-ref", "identifier", "title", "description", "requirements"] rfl
  exact ⟨ho,
    (struct_member (F := J.standardLevelFields) (toP := StandardLevel.toP) (ofP := StandardLevel.ofP) .here hd (fun _ => rfl) (fun _ _ => rfl)),
    (struct_member (F := J.standardLevelFields) (toP := StandardLevel.toP) (ofP := StandardLevel.ofP) (.there .here) hd (fun _ => rfl) (fun _ _ => rfl)),
    (struct_member (F := J.standardLevelFields) (toP := StandardLevel.toP) (ofP := StandardLevel.ofP) (.there (.there .here)) hd (fun _ => rfl) (fun _ _ => rfl)),
    (struct_member (F := J.standardLevelFields) (toP := StandardLevel.toP) (ofP := StandardLevel.ofP) (.there (.there (.there .here))) hd (fun _ => rfl) (fun _ _ => rfl)),
    (struct_member (F := J.standardLevelFields) (toP := StandardLevel.toP) (ofP := StandardLevel.ofP) (.there (.there (.there (.there .here)))) hd (fun _ => rfl) (fun _ _ => rfl))⟩

/-- cyclonedx.go:1416-1427 -/
theorem json_members_standardDefinition :
    Object J.standardDefinition ["bom-ref", "name", "version", "description", "owner", "requirements", "levels", "externalReferences", "signature"] ∧
    Member J.standardDefinition "bom-ref" false JCodec.string (fun x => x.bomRef)
      (fun (x : StandardDefinition) v => { x with bomRef := v }) ∧
    Member J.standardDefinition "name" false JCodec.string (fun x => x.name)
      (fun (x : StandardDefinition) v => { x with name := v }) ∧
    Member J.standardDefinition "version" false JCodec.string (fun x => x.version)
      (fun (x : StandardDefinition) v => { x with version := v }) ∧
    Member J.standardDefinition "description" false JCodec.string (fun x => x.description)
      (fun (x : StandardDefinition) v => { x with description := v }) ∧
    Member J.standardDefinition "owner" false JCodec.string (fun x => x.owner)
      (fun (x : StandardDefinition) v => { x with owner := v }) ∧
    Member J.standardDefinition "requirements" false (JCodec.pslice J.standardRequirement) (fun x => x.requirements)
      (fun (x : StandardDefinition) v => { x with requirements := v }) ∧
    Member J.standardDefinition "levels" false (JCodec.pslice J.standardLevel) (fun x => x.levels)
      (fun (x : StandardDefinition) v => { x with levels := v }) ∧
    Member J.standardDefinition "externalReferences" false (JCodec.pslice J.externalReference) (fun x => x.externalReferences)
      (fun (x : StandardDefinition) v => { x with externalReferences := v }) ∧
    Member J.standardDefinition "signature" false (JCodec.option J.jsfSignature) (fun x => x.signature)
      (fun (x : StandardDefinition) v => { x with signature := v }) := by
  have hd : JFields.NamesDistinct J.standardDefinitionFields :=
    show (List.map Json.foldKey ["bom-ref", "name", "version", "description", "owner", "requirements", "levels", "externalReferences", "signature"]).Nodup by decide +kernel
  have ho := struct_object J.standardDefinitionFields StandardDefinition.toP StandardDefinition.ofP (fun s => by cases s; rfl) (fun _ => rfl) ["bom-ref", "name", "version", "description", "owner", "requirements", "levels", "externalReferences", "signature"] rfl
  exact ⟨ho,
    (struct_member (F := J.standardDefinitionFields) (toP := StandardDefinition.toP) (ofP := StandardDefinition.ofP) .here hd (fun _ => rfl) (fun _ _ => rfl)),
    (struct_member (F := J.standardDefinitionFields) (toP := StandardDefinition.toP) (ofP := StandardDefinition.ofP) (.there .here) hd (fun _ => rfl) (fun _ _ => rfl)),
    (struct_member (F := J.standardDefinitionFields) (toP := StandardDefinition.toP) (ofP := StandardDefinition.ofP) (.there (.there .here)) hd (fun _ => rfl) (fun _ _ => rfl)),
    (struct_member (F := J.standardDefinitionFields) (toP := StandardDefinition.toP) (ofP := StandardDefinition.ofP) (.there (.there (.there .here))) hd (fun _ => rfl) (fun _ _ => rfl)),
    (struct_member (F := J.standardDefinitionFields) (toP := StandardDefinition.toP) (ofP := StandardDefinition.ofP) (.there (.there (.there (.there .here)))) hd (fun _ => rfl) (fun _ _ => rfl)),
    (struct_member (F := J.standardDefinitionFields) (toP := StandardDefinition.toP) (ofP := StandardDefinition.ofP) (.there (.there (.there (.there (.there .here))))) hd (fun _ => rfl) (fun _ _ => rfl)),
    (struct_member (F := J.standardDefinitionFields) (toP := StandardDefinition.toP) (ofP := StandardDefinition.ofP) (.there (.there (.there (.there (.there (.there .here)))))) hd (fun _ => rfl) (fun _ _ => rfl)),
    (struct_member (F := J.standardDefinitionFields) (toP := StandardDefinition.toP) (ofP := StandardDefinition.ofP) (.there (.there (.there (.there (.there (.there (.there .here))))))) hd (fun _ => rfl) (fun _ _ => rfl)),
    (struct_member (F := J.standardDefinitionFields) (toP := StandardDefinition.toP) (ofP := StandardDefinition.ofP) (.there (.there (.there (.there (.there (.there (.there (.there .here)))))))) hd (fun _ => rfl) (fun _ _ => rfl))⟩

/-- cyclonedx.go:598-601 -/
theorem json_members_definitions :
    Object J.definitions ["standards", "patents"] ∧
    Member J.definitions "standards" false (JCodec.pslice J.standardDefinition) (fun x => x.standards)
      (fun (x : Definitions) v => { x with standards := v }) ∧
    Member J.definitions "patents" false (JCodec.pslice J.patentChoice) (fun x => x.patents)
      (fun (x : Definitions) v => { x with patents := v }) := by
  have hd : JFields.NamesDistinct J.definitionsFields :=
    show (List.map Json.foldKey ["standards", "patents"]).Nodup by decide +kernel
  have ho := struct_object J.definitionsFields Definitions.toP Definitions.ofP (fun s => by cases s; rfl) (fun _ => rfl) ["standards", "patents"] rfl
  exact ⟨ho,
    (struct_member (F := J.definitionsFields) (toP := Definitions.toP) (ofP := Definitions.ofP) .here hd (fun _ => rfl) (fun _ _ => rfl)),
    (struct_member (F := J.definitionsFields) (toP := Definitions.toP) (ofP := Definitions.ofP) (.there .here) hd (fun _ => rfl) (fun _ _ => rfl))⟩

/-- cyclonedx.go:644-648 -/
theorem json_members_dependency :
    Object J.dependency ["ref", "dependsOn", "provides"] ∧
    Member J.dependency "ref" true JCodec.string (fun x => x.ref)
      (fun (x : Dependency) v => { x with ref := v }) ∧
    Member J.dependency "dependsOn" false (JCodec.pslice JCodec.string) (fun x => x.dependencies)
      (fun (x : Dependency) v => { x with dependencies := v }) ∧
    Member J.dependency "provides" false (JCodec.pslice JCodec.string) (fun x => x.provides)
      (fun (x : Dependency) v => { x with provides := v }) := by
  have hd : JFields.NamesDistinct J.dependencyFields :=
    show (List.map Json.foldKey ["ref", "dependsOn", "provides"]).Nodup by decide +kernel
  have ho := struct_object J.dependencyFields Dependency.toP Dependency.ofP (fun s => by cases s; rfl) (fun _ => rfl) ["ref", "dependsOn", "provides"] rfl
  exact ⟨ho,
    (struct_member (F := J.dependencyFields) (toP := Dependency.toP) (ofP := Dependency.ofP) .here hd (fun _ => rfl) (fun _ _ => rfl)),
    (struct_member (F := J.dependencyFields) (toP := Dependency.toP) (ofP := Dependency.ofP) (.there .here) hd (fun _ => rfl) (fun _ _ => rfl)),
    (struct_member (F := J.dependencyFields) (toP := Dependency.toP) (ofP := Dependency.ofP) (.there (.there .here)) hd (fun _ => rfl) (fun _ _ => rfl))⟩

/-- cyclonedx.go:1337-1340 -/
theorem json_members_resourceReferenceChoice :
    Object J.resourceReferenceChoice ["ref", "externalReference"] ∧
    Member J.resourceReferenceChoice "ref" false JCodec.string (fun x => x.ref)
      (fun (x : ResourceReferenceChoice) v => { x with ref := v }) ∧
    Member J.resourceReferenceChoice "externalReference" false (JCodec.option J.externalReference) (fun x => x.externalReference)
      (fun (x : ResourceReferenceChoice) v => { x with externalReference := v }) := by
  have hd : JFields.NamesDistinct J.resourceReferenceChoiceFields :=
    show (List.map Json.foldKey ["ref", "externalReference"]).Nodup by decide +kernel
  have ho := struct_object J.resourceReferenceChoiceFields ResourceReferenceChoice.toP ResourceReferenceChoice.ofP (fun s => by cases s; rfl) (fun _ => rfl) ["ref", "externalReference"] rfl
  exact ⟨ho,
    (struct_member (F := J.resourceReferenceChoiceFields) (toP := ResourceReferenceChoice.toP) (ofP := ResourceReferenceChoice.ofP) .here hd (fun _ => rfl) (fun _ _ => rfl)),
    (struct_member (F := J.resourceReferenceChoiceFields) (toP := ResourceReferenceChoice.toP) (ofP := ResourceReferenceChoice.ofP) (.there .here) hd (fun _ => rfl) (fun _ _ => rfl))⟩

/-- cyclonedx.go:1231-1235 -/
theorem json_members_parameter :
    Object J.parameter ["name", "value", "dataType"] ∧
    Member J.parameter "name" false JCodec.string (fun x => x.name)
      (fun (x : Parameter) v => { x with name := v }) ∧
    Member J.parameter "value" false JCodec.string (fun x => x.value)
      (fun (x : Parameter) v => { x with value := v }) ∧
    Member J.parameter "dataType" false JCodec.string (fun x => x.dataType)
      (fun (x : Parameter) v => { x with dataType := v }) := by
  have hd : JFields.NamesDistinct J.parameterFields :=
    show (List.map Json.foldKey ["name", "value", "dataType"]).Nodup by decide +kernel
  have ho := struct_object J.parameterFields Parameter.toP Parameter.ofP (fun s => by cases s; rfl) (fun _ => rfl) ["name", "value", "dataType"] rfl
  exact ⟨ho,
    (struct_member (F := J.parameterFields) (toP := Parameter.toP) (ofP := Parameter.ofP) .here hd (fun _ => rfl) (fun _ _ => rfl)),
    (struct_member (F := J.parameterFields) (toP := Parameter.toP) (ofP := Parameter.ofP) (.there .here) hd (fun _ => rfl) (fun _ _ => rfl)),
    (struct_member (F := J.parameterFields) (toP := Parameter.toP) (ofP := Parameter.ofP) (.there (.there .here)) hd (fun _ => rfl) (fun _ _ => rfl))⟩

/-- cyclonedx.go:1482-1490 -/
theorem json_members_taskInput :
    Object J.taskInput ["resource", "parameters", "environmentVars", "data", "source", "target", "properties"] ∧
    Member J.taskInput "resource" false (JCodec.option J.resourceReferenceChoice) (fun x => x.resource)
      (fun (x : TaskInput) v => { x with resource := v }) ∧
    Member J.taskInput "parameters" false (JCodec.pslice J.parameter) (fun x => x.parameters)
      (fun (x : TaskInput) v => { x with parameters := v }) ∧
    Member J.taskInput "environmentVars" false (JCodec.pslice J.environmentVariableChoice) (fun x => x.environmentVars)
      (fun (x : TaskInput) v => { x with environmentVars := v }) ∧
    Member J.taskInput "data" false (JCodec.option J.attachedText) (fun x => x.data)
      (fun (x : TaskInput) v => { x with data := v }) ∧
    Member J.taskInput "source" false (JCodec.option J.resourceReferenceChoice) (fun x => x.source)
      (fun (x : TaskInput) v => { x with source := v }) ∧
    Member J.taskInput "target" false (JCodec.option J.resourceReferenceChoice) (fun x => x.target)
      (fun (x : TaskInput) v => { x with target := v }) ∧
    Member J.taskInput "properties" false (JCodec.pslice J.property) (fun x => x.properties)
      (fun (x : TaskInput) v => { x with properties := v }) := by
  have hd : JFields.NamesDistinct J.taskInputFields :=
    show (List.map Json.foldKey ["resource", "parameters", "environmentVars", "data", "source", "target", "properties"]).Nodup by decide +kernel
  have ho := struct_object J.taskInputFields TaskInput.toP TaskInput.ofP (fun s => by cases s; rfl) (fun _ => rfl) ["resource", "parameters", "environmentVars", "data", "source", "target", "properties"] rfl
  exact ⟨ho,
    (struct_member (F := J.taskInputFields) (toP := TaskInput.toP) (ofP := TaskInput.ofP) .here hd (fun _ => rfl) (fun _ _ => rfl)),
    (struct_member (F := J.taskInputFields) (toP := TaskInput.toP) (ofP := TaskInput.ofP) (.there .here) hd (fun _ => rfl) (fun _ _ => rfl)),
    (struct_member (F := J.taskInputFields) (toP := TaskInput.toP) (ofP := TaskInput.ofP) (.there (.there .here)) hd (fun _ => rfl) (fun _ _ => rfl)),
    (struct_member (F := J.taskInputFields) (toP := TaskInput.toP) (ofP := TaskInput.ofP) (.there (.there (.there .here))) hd (fun _ => rfl) (fun _ _ => rfl)),
    (struct_member (F := J.taskInputFields) (toP := TaskInput.toP) (ofP := TaskInput.ofP) (.there (.there (.there (.there .here)))) hd (fun _ => rfl) (fun _ _ => rfl)),
    (struct_member (F := J.taskInputFields) (toP := TaskInput.toP) (ofP := TaskInput.ofP) (.there (.there (.there (.there (.there .here))))) hd (fun _ => rfl) (fun _ _ => rfl)),
    (struct_member (F := J.taskInputFields) (toP := TaskInput.toP) (ofP := TaskInput.ofP) (.there (.there (.there (.there (.there (.there .here)))))) hd (fun _ => rfl) (fun _ _ => rfl))⟩

/-- cyclonedx.go:1492-1501 -/
theorem json_members_taskOutput :
    Object J.taskOutput ["resource", "parameters", "environmentVars", "data", "type", "source", "target", "properties"] ∧
    Member J.taskOutput "resource" false (JCodec.option J.resourceReferenceChoice) (fun x => x.resource)
      (fun (x : TaskOutput) v => { x with resource := v }) ∧
    Member J.taskOutput "parameters" false (JCodec.pslice J.parameter) (fun x => x.parameters)
      (fun (x : TaskOutput) v => { x with parameters := v }) ∧
    Member J.taskOutput "environmentVars" false (JCodec.pslice J.environmentVariableChoice) (fun x => x.environmentVars)
      (fun (x : TaskOutput) v => { x with environmentVars := v }) ∧
    Member J.taskOutput "data" false (JCodec.option J.attachedText) (fun x => x.data)
      (fun (x : TaskOutput) v => { x with data := v }) ∧
    Member J.taskOutput "type" false JCodec.string (fun x => x.type)
      (fun (x : TaskOutput) v => { x with type := v }) ∧
    Member J.taskOutput "source" false (JCodec.option J.resourceReferenceChoice) (fun x => x.source)
      (fun (x : TaskOutput) v => { x with source := v }) ∧
    Member J.taskOutput "target" false (JCodec.option J.resourceReferenceChoice) (fun x => x.target)
      (fun (x : TaskOutput) v => { x with target := v }) ∧
    Member J.taskOutput "properties" false (JCodec.pslice J.property) (fun x => x.properties)
      (fun (x : TaskOutput) v => { x with properties := v }) := by
  have hd : JFields.NamesDistinct J.taskOutputFields :=
    show (List.map Json.foldKey ["resource", "parameters", "environmentVars", "data", "type", "source", "target", "properties"]).Nodup by decide +kernel
  have ho := struct_object J.taskOutputFields TaskOutput.toP TaskOutput.ofP (fun s => by cases s; rfl) (fun _ => rfl) ["resource", "parameters", "environmentVars", "data", "type", "source", "target", "properties"] rfl
  exact ⟨ho,
    (struct_member (F := J.taskOutputFields) (toP := TaskOutput.toP) (ofP := TaskOutput.ofP) .here hd (fun _ => rfl) (fun _ _ => rfl)),
    (struct_member (F := J.taskOutputFields) (toP := TaskOutput.toP) (ofP := TaskOutput.ofP) (.there .here) hd (fun _ => rfl) (fun _ _ => rfl)),
    (struct_member (F := J.taskOutputFields) (toP := TaskOutput.toP) (ofP := TaskOutput.ofP) (.there (.there .here)) hd (fun _ => rfl) (fun _ _ => rfl)),
    (struct_member (F := J.taskOutputFields) (toP := TaskOutput.toP) (ofP := TaskOutput.ofP) (.there (.there (.there .here))) hd (fun _ => rfl) (fun _ _ => rfl)),
    (struct_member (F := J.taskOutputFields) (toP := TaskOutput.toP) (ofP := TaskOutput.ofP) (.there (.there (.there (.there .here)))) hd (fun _ => rfl) (fun _ _ => rfl)),
    (struct_member (F := J.taskOutputFields) (toP := TaskOutput.toP) (ofP := TaskOutput.ofP) (.there (.there (.there (.there (.there .here))))) hd (fun _ => rfl) (fun _ _ => rfl)),
    (struct_member (F := J.taskOutputFields) (toP := TaskOutput.toP) (ofP := TaskOutput.ofP) (.there (.there (.there (.there (.there (.there .here)))))) hd (fun _ => rfl) (fun _ _ => rfl)),
    (struct_member (F := J.taskOutputFields) (toP := TaskOutput.toP) (ofP := TaskOutput.ofP) (.there (.there (.there (.there (.there (.there (.there .here))))))) hd (fun _ => rfl) (fun _ _ => rfl))⟩

/-- cyclonedx.go:1477-1480 -/
theorem json_members_taskCommand :
    Object J.taskCommand ["executed", "properties"] ∧
    Member J.taskCommand "executed" false JCodec.string (fun x => x.executed)
      (fun (x : TaskCommand) v => { x with executed := v }) ∧
    Member J.taskCommand "properties" false (JCodec.pslice J.property) (fun x => x.properties)
      (fun (x : TaskCommand) v => { x with properties := v }) := by
  have hd : JFields.NamesDistinct J.taskCommandFields :=
    show (List.map Json.foldKey ["executed", "properties"]).Nodup by decide +kernel
  have ho := struct_object J.taskCommandFields TaskCommand.toP TaskCommand.ofP (fun s => by cases s; rfl) (fun _ => rfl) ["executed", "properties"] rfl
  exact ⟨ho,
    (struct_member (F := J.taskCommandFields) (toP := TaskCommand.toP) (ofP := TaskCommand.ofP) .here hd (fun _ => rfl) (fun _ _ => rfl)),
    (struct_member (F := J.taskCommandFields) (toP := TaskCommand.toP) (ofP := TaskCommand.ofP) (.there .here) hd (fun _ => rfl) (fun _ _ => rfl))⟩

/-- cyclonedx.go:1514-1519 -/
theorem json_members_taskStep :
    Object J.taskStep ["name", "description", "commands", "properties"] ∧
    Member J.taskStep "name" false JCodec.string (fun x => x.name)
      (fun (x : TaskStep) v => { x with name := v }) ∧
    Member J.taskStep "description" false JCodec.string (fun x => x.description)
      (fun (x : TaskStep) v => { x with description := v }) ∧
    Member J.taskStep "commands" false (JCodec.pslice J.taskCommand) (fun x => x.commands)
      (fun (x : TaskStep) v => { x with commands := v }) ∧
    Member J.taskStep "properties" false (JCodec.pslice J.property) (fun x => x.properties)
      (fun (x : TaskStep) v => { x with properties := v }) := by
  have hd : JFields.NamesDistinct J.taskStepFields :=
    show (List.map Json.foldKey ["name", "description", "commands", "properties"]).Nodup by decide +kernel
  have ho := struct_object J.taskStepFields TaskStep.toP TaskStep.ofP (fun s => by cases s; rfl) (fun _ => rfl) ["name", "description", "commands", "properties"] rfl
  exact ⟨ho,
    (struct_member (F := J.taskStepFields) (toP := TaskStep.toP) (ofP := TaskStep.ofP) .here hd (fun _ => rfl) (fun _ _ => rfl)),
    (struct_member (F := J.taskStepFields) (toP := TaskStep.toP) (ofP := TaskStep.ofP) (.there .here) hd (fun _ => rfl) (fun _ _ => rfl)),
    (struct_member (F := J.taskStepFields) (toP := TaskStep.toP) (ofP := TaskStep.ofP) (.there (.there .here)) hd (fun _ => rfl) (fun _ _ => rfl)),
    (struct_member (F := J.taskStepFields) (toP := TaskStep.toP) (ofP := TaskStep.ofP) (.there (.there (.there .here))) hd (fun _ => rfl) (fun _ _ => rfl))⟩

/-- cyclonedx.go:662-670 -/
theorem json_members_event :
    Object J.event ["uid", "description", "timeReceived", "data", "source", "target", "properties"] ∧
    Member J.event "uid" false JCodec.string (fun x => x.uid)
      (fun (x : Event) v => { x with uid := v }) ∧
    Member J.event "description" false JCodec.string (fun x => x.description)
      (fun (x : Event) v => { x with description := v }) ∧
    Member J.event "timeReceived" false JCodec.string (fun x => x.timeReceived)
      (fun (x : Event) v => { x with timeReceived := v }) ∧
    Member J.event "data" false (JCodec.option J.attachedText) (fun x => x.data)
      (fun (x : Event) v => { x with data := v }) ∧
    Member J.event "source" false (JCodec.option J.resourceReferenceChoice) (fun x => x.source)
      (fun (x : Event) v => { x with source := v }) ∧
    Member J.event "target" false (JCodec.option J.resourceReferenceChoice) (fun x => x.target)
      (fun (x : Event) v => { x with target := v }) ∧
    Member J.event "properties" false (JCodec.pslice J.property) (fun x => x.properties)
      (fun (x : Event) v => { x with properties := v }) := by
  have hd : JFields.NamesDistinct J.eventFields :=
    show (List.map Json.foldKey ["uid", "description", "timeReceived", "data", "source", "target", "properties"]).Nodup by decide +kernel
  have ho := struct_object J.eventFields Event.toP Event.ofP (fun s => by cases s; rfl) (fun _ => rfl) ["uid", "description", "timeReceived", "data", "source", "target", "properties"] rfl
  exact ⟨ho,
    (struct_member (F := J.eventFields) (toP := Event.toP) (ofP := Event.ofP) .here hd (fun _ => rfl) (fun _ _ => rfl)),
    (struct_member (F := J.eventFields) (toP := Event.toP) (ofP := Event.ofP) (.there .here) hd (fun _ => rfl) (fun _ _ => rfl)),
    (struct_member (F := J.eventFields) (toP := Event.toP) (ofP := Event.ofP) (.there (.there .here)) hd (fun _ => rfl) (fun _ _ => rfl)),
    (struct_member (F := J.eventFields) (toP := Event.toP) (ofP := Event.ofP) (.there (.there (.there .here))) hd (fun _ => rfl) (fun _ _ => rfl)),
    (struct_member (F := J.eventFields) (toP := Event.toP) (ofP := Event.ofP) (.there (.there (.there (.there .here)))) hd (fun _ => rfl) (fun _ _ => rfl)),
    (struct_member (F := J.eventFields) (toP := Event.toP) (ofP := Event.ofP) (.there (.there (.there (.there (.there .here))))) hd (fun _ => rfl) (fun _ _ => rfl)),
    (struct_member (F := J.eventFields) (toP := Event.toP) (ofP := Event.ofP) (.there (.there (.there (.there (.there (.there .here)))))) hd (fun _ => rfl) (fun _ _ => rfl))⟩

/-- cyclonedx.go:1536-1540 -/
theorem json_members_taskTriggerCondition :
    Object J.taskTriggerCondition ["description", "expression", "properties"] ∧
    Member J.taskTriggerCondition "description" false JCodec.string (fun x => x.description)
      (fun (x : TaskTriggerCondition) v => { x with description := v }) ∧
    Member J.taskTriggerCondition "expression" false JCodec.string (fun x => x.expression)
      (fun (x : TaskTriggerCondition) v => { x with expression := v }) ∧
    Member J.taskTriggerCondition "properties" false (JCodec.pslice J.property) (fun x => x.properties)
      (fun (x : TaskTriggerCondition) v => { x with properties := v }) := by
  have hd : JFields.NamesDistinct J.taskTriggerConditionFields :=
    show (List.map Json.foldKey ["description", "expression", "properties"]).Nodup by decide +kernel
  have ho := struct_object J.taskTriggerConditionFields TaskTriggerCondition.toP TaskTriggerCondition.ofP (fun s => by cases s; rfl) (fun _ => rfl) ["description", "expression", "properties"] rfl
  exact ⟨ho,
    (struct_member (F := J.taskTriggerConditionFields) (toP := TaskTriggerCondition.toP) (ofP := TaskTriggerCondition.ofP) .here hd (fun _ => rfl) (fun _ _ => rfl)),
    (struct_member (F := J.taskTriggerConditionFields) (toP := TaskTriggerCondition.toP) (ofP := TaskTriggerCondition.ofP) (.there .here) hd (fun _ => rfl) (fun _ _ => rfl)),
    (struct_member (F := J.taskTriggerConditionFields) (toP := TaskTriggerCondition.toP) (ofP := TaskTriggerCondition.ofP) (.there (.there .here)) hd (fun _ => rfl) (fun _ _ => rfl))⟩

/-- cyclonedx.go:1521-1534 -/
theorem json_members_taskTrigger :
    Object J.taskTrigger ["bom-ref", "uid", "name", "description", "resourceReferences", "type", "event", "conditions", "timeActivated", "inputs", "outputs", "properties"] ∧
    Member J.taskTrigger "bom-ref" false JCodec.string (fun x => x.bomRef)
      (fun (x : TaskTrigger) v => { x with bomRef := v }) ∧
    Member J.taskTrigger "uid" false JCodec.string (fun x => x.uid)
      (fun (x : TaskTrigger) v => { x with uid := v }) ∧
    Member J.taskTrigger "name" false JCodec.string (fun x => x.name)
      (fun (x : TaskTrigger) v => { x with name := v }) ∧
    Member J.taskTrigger "description" false JCodec.string (fun x => x.description)
      (fun (x : TaskTrigger) v => { x with description := v }) ∧
    Member J.taskTrigger "resourceReferences" false (JCodec.pslice J.resourceReferenceChoice) (fun x => x.resourceReferences)
      (fun (x : TaskTrigger) v => { x with resourceReferences := v }) ∧
    Member J.taskTrigger "type" false JCodec.string (fun x => x.type)
      (fun (x : TaskTrigger) v => { x with type := v }) ∧
    Member J.taskTrigger "event" false (JCodec.option J.event) (fun x => x.event)
      (fun (x : TaskTrigger) v => { x with event := v }) ∧
    Member J.taskTrigger "conditions" false (JCodec.pslice J.taskTriggerCondition) (fun x => x.conditions)
      (fun (x : TaskTrigger) v => { x with conditions := v }) ∧
    Member J.taskTrigger "timeActivated" false JCodec.string (fun x => x.timeActivated)
      (fun (x : TaskTrigger) v => { x with timeActivated := v }) ∧
    Member J.taskTrigger "inputs" false (JCodec.pslice J.taskInput) (fun x => x.inputs)
      (fun (x : TaskTrigger) v => { x with inputs := v }) ∧
    Member J.taskTrigger "outputs" false (JCodec.pslice J.taskOutput) (fun x => x.outputs)
      (fun (x : TaskTrigger) v => { x with outputs := v }) ∧
    Member J.taskTrigger "properties" false (JCodec.pslice J.property) (fun x => x.properties)
      (fun (x : TaskTrigger) v => { x with properties := v }) := by
  have hd : JFields.NamesDistinct J.taskTriggerFields :=
    show (List.map Json.foldKey ["bom-ref", "uid", "name", "description", "resourceReferences", "type", "event", "conditions", "timeActivated", "inputs", "outputs", "properties"]).Nodup by decide +kernel
  have ho := struct_object J.taskTriggerFields TaskTrigger.toP TaskTrigger.ofP (fun s => by cases s; rfl) (fun _ => rfl) ["bom-ref", "uid", "name", "description", "resourceReferences", "type", "event", "conditions", "timeActivated", "inputs", "outputs", "properties"] rfl
  exact ⟨ho,
    (struct_member (F := J.taskTriggerFields) (toP := TaskTrigger.toP) (ofP := TaskTrigger.ofP) .here hd (fun _ => rfl) (fun _ _ => rfl)),
    (struct_member (F := J.taskTriggerFields) (toP := TaskTrigger.toP) (ofP := TaskTrigger.ofP) (.there .here) hd (fun _ => rfl) (fun _ _ => rfl)),
    (struct_member (F := J.taskTriggerFields) (toP := TaskTrigger.toP) (ofP := TaskTrigger.ofP) (.there (.there .here)) hd (fun _ => rfl) (fun _ _ => rfl)),
    (struct_member (F := J.taskTriggerFields) (toP := TaskTrigger.toP) (ofP := TaskTrigger.ofP) (.there (.there (.there .here))) hd (fun _ => rfl) (fun _ _ => rfl)),
    (struct_member (F := J.taskTriggerFields) (toP := TaskTrigger.toP) (ofP := TaskTrigger.ofP) (.there (.there (.there (.there .here)))) hd (fun _ => rfl) (fun _ _ => rfl)),
    (struct_member (F := J.taskTriggerFields) (toP := TaskTrigger.toP) (ofP := TaskTrigger.ofP) (.there (.there (.there (.there (.there .here))))) hd (fun _ => rfl) (fun _ _ => rfl)),
    (struct_member (F := J.taskTriggerFields) (toP := TaskTrigger.toP) (ofP := TaskTrigger.ofP) (.there (.there (.there (.there (.there (.there .here)))))) hd (fun _ => rfl) (fun _ _ => rfl)),
    (struct_member (F := J.taskTriggerFields) (toP := TaskTrigger.toP) (ofP := TaskTrigger.ofP) (.there (.there (.there (.there (.there (.there (.there .here))))))) hd (fun _ => rfl) (fun _ _ => rfl)),
    (struct_member (F := J.taskTriggerFields) (toP := TaskTrigger.toP) (ofP := TaskTrigger.ofP) (.there (.there (.there (.there (.there (.there (.there (.there .here)))))))) hd (fun _ => rfl) (fun _ _ => rfl)),
    (struct_member (F := J.taskTriggerFields) (toP := TaskTrigger.toP) (ofP := TaskTrigger.ofP) (.there (.there (.there (.there (.there (.there (.there (.there (.there .here))))))))) hd (fun _ => rfl) (fun _ _ => rfl)),
    (struct_member (F := J.taskTriggerFields) (toP := TaskTrigger.toP) (ofP := TaskTrigger.ofP) (.there (.there (.there (.there (.there (.there (.there (.there (.there (.there .here)))))))))) hd (fun _ => rfl) (fun _ _ => rfl)),
    (struct_member (F := J.taskTriggerFields) (toP := TaskTrigger.toP) (ofP := TaskTrigger.ofP) (.there (.there (.there (.there (.there (.there (.there (.there (.there (.there (.there .here))))))))))) hd (fun _ => rfl) (fun _ _ => rfl))⟩

/-- cyclonedx.go:1616-1625 -/
theorem json_members_volume :
    Object J.volume ["uid", "name", "mode", "path", "sizeAllocated", "persistent", "remote", "properties"] ∧
    Member J.volume "uid" false JCodec.string (fun x => x.uid)
      (fun (x : Volume) v => { x with uid := v }) ∧
    Member J.volume "name" false JCodec.string (fun x => x.name)
      (fun (x : Volume) v => { x with name := v }) ∧
    Member J.volume "mode" false JCodec.string (fun x => x.mode)
      (fun (x : Volume) v => { x with mode := v }) ∧
    Member J.volume "path" false JCodec.string (fun x => x.path)
      (fun (x : Volume) v => { x with path := v }) ∧
    Member J.volume "sizeAllocated" false JCodec.string (fun x => x.sizeAllocated)
      (fun (x : Volume) v => { x with sizeAllocated := v }) ∧
    Member J.volume "persistent" false (JCodec.option JCodec.bool) (fun x => x.persistent)
      (fun (x : Volume) v => { x with persistent := v }) ∧
    Member J.volume "remote" false (JCodec.option JCodec.bool) (fun x => x.remote)
      (fun (x : Volume) v => { x with remote := v }) ∧
    Member J.volume "properties" false (JCodec.pslice J.property) (fun x => x.properties)
      (fun (x : Volume) v => { x with properties := v }) := by
  have hd : JFields.NamesDistinct J.volumeFields :=
    show (List.map Json.foldKey ["uid", "name", "mode", "path", "sizeAllocated", "persistent", "remote", "properties"]).Nodup by decide +kernel
  have ho := struct_object J.volumeFields Volume.toP Volume.ofP (fun s => by cases s; rfl) (fun _ => rfl) ["uid", "name", "mode", "path", "sizeAllocated", "persistent", "remote", "properties"] rfl
  exact ⟨ho,
    (struct_member (F := J.volumeFields) (toP := Volume.toP) (ofP := Volume.ofP) .here hd (fun _ => rfl) (fun _ _ => rfl)),
    (struct_member (F := J.volumeFields) (toP := Volume.toP) (ofP := Volume.ofP) (.there .here) hd (fun _ => rfl) (fun _ _ => rfl)),
    (struct_member (F := J.volumeFields) (toP := Volume.toP) (ofP := Volume.ofP) (.there (.there .here)) hd (fun _ => rfl) (fun _ _ => rfl)),
    (struct_member (F := J.volumeFields) (toP := Volume.toP) (ofP := Volume.ofP) (.there (.there (.there .here))) hd (fun _ => rfl) (fun _ _ => rfl)),
    (struct_member (F := J.volumeFields) (toP := Volume.toP) (ofP := Volume.ofP) (.there (.there (.there (.there .here)))) hd (fun _ => rfl) (fun _ _ => rfl)),
    (struct_member (F := J.volumeFields) (toP := Volume.toP) (ofP := Volume.ofP) (.there (.there (.there (.there (.there .here))))) hd (fun _ => rfl) (fun _ _ => rfl)),
    (struct_member (F := J.volumeFields) (toP := Volume.toP) (ofP := Volume.ofP) (.there (.there (.there (.there (.there (.there .here)))))) hd (fun _ => rfl) (fun _ _ => rfl)),
    (struct_member (F := J.volumeFields) (toP := Volume.toP) (ofP := Volume.ofP) (.there (.there (.there (.there (.there (.there (.there .here))))))) hd (fun _ => rfl) (fun _ _ => rfl))⟩

/-- cyclonedx.go:1568-1581 -/
theorem json_members_taskWorkspace :
    Object J.taskWorkspace ["bom-ref", "uid", "name", "aliases", "description", "resourceReferences", "accessMode", "mountPath", "managedDataType", "volumeRequest", "volume", "properties"] ∧
    Member J.taskWorkspace "bom-ref" false JCodec.string (fun x => x.bomRef)
      (fun (x : TaskWorkspace) v => { x with bomRef := v }) ∧
    Member J.taskWorkspace "uid" false JCodec.string (fun x => x.uid)
      (fun (x : TaskWorkspace) v => { x with uid := v }) ∧
    Member J.taskWorkspace "name" false JCodec.string (fun x => x.name)
      (fun (x : TaskWorkspace) v => { x with name := v }) ∧
    Member J.taskWorkspace "aliases" false (JCodec.pslice JCodec.string) (fun x => x.aliases)
      (fun (x : TaskWorkspace) v => { x with aliases := v }) ∧
    Member J.taskWorkspace "description" false JCodec.string (fun x => x.description)
      (fun (x : TaskWorkspace) v => { x with description := v }) ∧
    Member J.taskWorkspace "resourceReferences" false (JCodec.pslice J.resourceReferenceChoice) (fun x => x.resourceReferences)
      (fun (x : TaskWorkspace) v => { x with resourceReferences := v }) ∧
    Member J.taskWorkspace "accessMode" false JCodec.string (fun x => x.accessMode)
      (fun (x : TaskWorkspace) v => { x with accessMode := v }) ∧
    Member J.taskWorkspace "mountPath" false JCodec.string (fun x => x.mountPath)
      (fun (x : TaskWorkspace) v => { x with mountPath := v }) ∧
    Member J.taskWorkspace "managedDataType" false JCodec.string (fun x => x.managedDataType)
      (fun (x : TaskWorkspace) v => { x with managedDataType := v }) ∧
    Member J.taskWorkspace "volumeRequest" false JCodec.string (fun x => x.volumeRequest)
      (fun (x : TaskWorkspace) v => { x with volumeRequest := v }) ∧
    Member J.taskWorkspace "volume" false (JCodec.option J.volume) (fun x => x.volume)
      (fun (x : TaskWorkspace) v => { x with volume := v }) ∧
    Member J.taskWorkspace "properties" false (JCodec.pslice J.property) (fun x => x.properties)
      (fun (x : TaskWorkspace) v => { x with properties := v }) := by
  have hd : JFields.NamesDistinct J.taskWorkspaceFields :=
    show (List.map Json.foldKey ["bom-ref", "uid", "name", "aliases", "description", "resourceReferences", "accessMode", "mountPath", "managedDataType", "volumeRequest", "volume", "properties"]).Nodup by decide +kernel
  have ho := struct_object J.taskWorkspaceFields TaskWorkspace.toP TaskWorkspace.ofP (fun s => by cases s; rfl) (fun _ => rfl) ["bom-ref", "uid", "name", "aliases", "description", "resourceReferences", "accessMode", "mountPath", "managedDataType", "volumeRequest", "volume", "properties"] rfl
  exact ⟨ho,
    (struct_member (F := J.taskWorkspaceFields) (toP := TaskWorkspace.toP) (ofP := TaskWorkspace.ofP) .here hd (fun _ => rfl) (fun _ _ => rfl)),
    (struct_member (F := J.taskWorkspaceFields) (toP := TaskWorkspace.toP) (ofP := TaskWorkspace.ofP) (.there .here) hd (fun _ => rfl) (fun _ _ => rfl)),
    (struct_member (F := J.taskWorkspaceFields) (toP := TaskWorkspace.toP) (ofP := TaskWorkspace.ofP) (.there (.there .here)) hd (fun _ => rfl) (fun _ _ => rfl)),
    (struct_member (F := J.taskWorkspaceFields) (toP := TaskWorkspace.toP) (ofP := TaskWorkspace.ofP) (.there (.there (.there .here))) hd (fun _ => rfl) (fun _ _ => rfl)),
    (struct_member (F := J.taskWorkspaceFields) (toP := TaskWorkspace.toP) (ofP := TaskWorkspace.ofP) (.there (.there (.there (.there .here)))) hd (fun _ => rfl) (fun _ _ => rfl)),
    (struct_member (F := J.taskWorkspaceFields) (toP := TaskWorkspace.toP) (ofP := TaskWorkspace.ofP) (.there (.there (.there (.there (.there .here))))) hd (fun _ => rfl) (fun _ _ => rfl)),
    (struct_member (F := J.taskWorkspaceFields) (toP := TaskWorkspace.toP) (ofP := TaskWorkspace.ofP) (.there (.there (.there (.there (.there (.there .here)))))) hd (fun _ => rfl) (fun _ _ => rfl)),
    (struct_member (F := J.taskWorkspaceFields) (toP := TaskWorkspace.toP) (ofP := TaskWorkspace.ofP) (.there (.there (.there (.there (.there (.there (.there .here))))))) hd (fun _ => rfl) (fun _ _ => rfl)),
    (struct_member (F := J.taskWorkspaceFields) (toP := TaskWorkspace.toP) (ofP := TaskWorkspace.ofP) (.there (.there (.there (.there (.there (.there (.there (.there .here)))))))) hd (fun _ => rfl) (fun _ _ => rfl)),
    (struct_member (F := J.taskWorkspaceFields) (toP := TaskWorkspace.toP) (ofP := TaskWorkspace.ofP) (.there (.there (.there (.there (.there (.there (.there (.there (.there .here))))))))) hd (fun _ => rfl) (fun _ _ => rfl)),
    (struct_member (F := J.taskWorkspaceFields) (toP := TaskWorkspace.toP) (ofP := TaskWorkspace.ofP) (.there (.there (.there (.there (.there (.there (.there (.there (.there (.there .here)))))))))) hd (fun _ => rfl) (fun _ _ => rfl)),
    (struct_member (F := J.taskWorkspaceFields) (toP := TaskWorkspace.toP) (ofP := TaskWorkspace.ofP) (.there (.there (.there (.there (.there (.there (.there (.there (.there (.there (.there .here))))))))))) hd (fun _ => rfl) (fun _ _ => rfl))⟩

/-- cyclonedx.go:1459-1475 -/
theorem json_members_task :
    Object J.task ["bom-ref", "uid", "name", "description", "properties", "resourceReferences", "taskTypes", "trigger", "steps", "inputs", "outputs", "timeStart", "timeEnd", "workspaces", "runtimeTopology"] ∧
    Member J.task "bom-ref" false JCodec.string (fun x => x.bomRef)
      (fun (x : Task) v => { x with bomRef := v }) ∧
    Member J.task "uid" false JCodec.string (fun x => x.uid)
      (fun (x : Task) v => { x with uid := v }) ∧
    Member J.task "name" false JCodec.string (fun x => x.name)
      (fun (x : Task) v => { x with name := v }) ∧
    Member J.task "description" false JCodec.string (fun x => x.description)
      (fun (x : Task) v => { x with description := v }) ∧
    Member J.task "properties" false (JCodec.pslice J.property) (fun x => x.properties)
      (fun (x : Task) v => { x with properties := v }) ∧
    Member J.task "resourceReferences" false (JCodec.pslice J.resourceReferenceChoice) (fun x => x.resourceReferences)
      (fun (x : Task) v => { x with resourceReferences := v }) ∧
    Member J.task "taskTypes" false (JCodec.pslice JCodec.string) (fun x => x.taskTypes)
      (fun (x : Task) v => { x with taskTypes := v }) ∧
    Member J.task "trigger" false (JCodec.option J.taskTrigger) (fun x => x.trigger)
      (fun (x : Task) v => { x with trigger := v }) ∧
    Member J.task "steps" false (JCodec.pslice J.taskStep) (fun x => x.steps)
      (fun (x : Task) v => { x with steps := v }) ∧
    Member J.task "inputs" false (JCodec.pslice J.taskInput) (fun x => x.inputs)
      (fun (x : Task) v => { x with inputs := v }) ∧
    Member J.task "outputs" false (JCodec.pslice J.taskOutput) (fun x => x.outputs)
      (fun (x : Task) v => { x with outputs := v }) ∧
    Member J.task "timeStart" false JCodec.string (fun x => x.timeStart)
      (fun (x : Task) v => { x with timeStart := v }) ∧
    Member J.task "timeEnd" false JCodec.string (fun x => x.timeEnd)
      (fun (x : Task) v => { x with timeEnd := v }) ∧
    Member J.task "workspaces" false (JCodec.pslice J.taskWorkspace) (fun x => x.workspaces)
      (fun (x : Task) v => { x with workspaces := v }) ∧
    Member J.task "runtimeTopology" false (JCodec.pslice J.dependency) (fun x => x.runtimeTopology)
      (fun (x : Task) v => { x with runtimeTopology := v }) := by
  have hd : JFields.NamesDistinct J.taskFields :=
    show (List.map Json.foldKey ["bom-ref", "uid", "name", "description", "properties", "resourceReferences", "taskTypes", "trigger", "steps", "inputs", "outputs", "timeStart", "timeEnd", "workspaces", "runtimeTopology"]).Nodup by decide +kernel
  have ho := struct_object J.taskFields Task.toP Task.ofP (fun s => by cases s; rfl) (fun _ => rfl) ["bom-ref", "uid", "name", "description", "properties", "resourceReferences", "taskTypes", "trigger", "steps", "inputs", "outputs", "timeStart", "timeEnd", "workspaces", "runtimeTopology"] rfl
  exact ⟨ho,
    (struct_member (F := J.taskFields) (toP := Task.toP) (ofP := Task.ofP) .here hd (fun _ => rfl) (fun _ _ => rfl)),
    (struct_member (F := J.taskFields) (toP := Task.toP) (ofP := Task.ofP) (.there .here) hd (fun _ => rfl) (fun _ _ => rfl)),
    (struct_member (F := J.taskFields) (toP := Task.toP) (ofP := Task.ofP) (.there (.there .here)) hd (fun _ => rfl) (fun _ _ => rfl)),
    (struct_member (F := J.taskFields) (toP := Task.toP) (ofP := Task.ofP) (.there (.there (.there .here))) hd (fun _ => rfl) (fun _ _ => rfl)),
    (struct_member (F := J.taskFields) (toP := Task.toP) (ofP := Task.ofP) (.there (.there (.there (.there .here)))) hd (fun _ => rfl) (fun _ _ => rfl)),
    (struct_member (F := J.taskFields) (toP := Task.toP) (ofP := Task.ofP) (.there (.there (.there (.there (.there .here))))) hd (fun _ => rfl) (fun _ _ => rfl)),
    (struct_member (F := J.taskFields) (toP := Task.toP) (ofP := Task.ofP) (.there (.there (.there (.there (.there (.there .here)))))) hd (fun _ => rfl) (fun _ _ => rfl)),
    (struct_member (F := J.taskFields) (toP := Task.toP) (ofP := Task.ofP) (.there (.there (.there (.there (.there (.there (.there .here))))))) hd (fun _ => rfl) (fun _ _ => rfl)),
    (struct_member (F := J.taskFields) (toP := Task.toP) (ofP := Task.ofP) (.there (.there (.there (.there (.there (.there (.there (.there .here)))))))) hd (fun _ => rfl) (fun _ _ => rfl)),
    (struct_member (F := J.taskFields) (toP := Task.toP) (ofP := Task.ofP) (.there (.there (.there (.there (.there (.there (.there (.there (.there .here))))))))) hd (fun _ => rfl) (fun _ _ => rfl)),
    (struct_member (F := J.taskFields) (toP := Task.toP) (ofP := Task.ofP) (.there (.there (.there (.there (.there (.there (.there (.there (.there (.there .here)))))))))) hd (fun _ => rfl) (fun _ _ => rfl)),
    (struct_member (F := J.taskFields) (toP := Task.toP) (ofP := Task.ofP) (.there (.there (.there (.there (.there (.there (.there (.there (.there (.there (.there .here))))))))))) hd (fun _ => rfl) (fun _ _ => rfl)),
    (struct_member (F := J.taskFields) (toP := Task.toP) (ofP := Task.ofP) (.there (.there (.there (.there (.there (.there (.there (.there (.there (.there (.there (.there .here)))))))))))) hd (fun _ => rfl) (fun _ _ => rfl)),
    (struct_member (F := J.taskFields) (toP := Task.toP) (ofP := Task.ofP) (.there (.there (.there (.there (.there (.there (.there (.there (.there (.there (.there (.there (.there .here))))))))))))) hd (fun _ => rfl) (fun _ _ => rfl)),
    (struct_member (F := J.taskFields) (toP := Task.toP) (ofP := Task.ofP) (.there (.there (.there (.there (.there (.there (.there (.there (.there (.there (.there (.there (.there (.there .here)))))))))))))) hd (fun _ => rfl) (fun _ _ => rfl))⟩

/-- cyclonedx.go:1689-1707 -/
theorem json_members_workflow :
    Object J.workflow ["bom-ref", "uid", "name", "description", "resourceReferences", "tasks", "taskDependencies", "taskTypes", "trigger", "steps", "inputs", "outputs", "timeStart", "timeEnd", "workspaces", "runtimeTopology", "properties"] ∧
    Member J.workflow "bom-ref" false JCodec.string (fun x => x.bomRef)
      (fun (x : Workflow) v => { x with bomRef := v }) ∧
    Member J.workflow "uid" false JCodec.string (fun x => x.uid)
      (fun (x : Workflow) v => { x with uid := v }) ∧
    Member J.workflow "name" false JCodec.string (fun x => x.name)
      (fun (x : Workflow) v => { x with name := v }) ∧
    Member J.workflow "description" false JCodec.string (fun x => x.description)
      (fun (x : Workflow) v => { x with description := v }) ∧
    Member J.workflow "resourceReferences" false (JCodec.pslice J.resourceReferenceChoice) (fun x => x.resourceReferences)
      (fun (x : Workflow) v => { x with resourceReferences := v }) ∧
    Member J.workflow "tasks" false (JCodec.pslice J.task) (fun x => x.tasks)
      (fun (x : Workflow) v => { x with tasks := v }) ∧
    Member J.workflow "taskDependencies" false (JCodec.pslice J.dependency) (fun x => x.taskDependencies)
      (fun (x : Workflow) v => { x with taskDependencies := v }) ∧
    Member J.workflow "taskTypes" false (JCodec.pslice JCodec.string) (fun x => x.taskTypes)
      (fun (x : Workflow) v => { x with taskTypes := v }) ∧
    Member J.workflow "trigger" false (JCodec.option J.taskTrigger) (fun x => x.trigger)
      (fun (x : Workflow) v => { x with trigger := v }) ∧
    Member J.workflow "steps" false (JCodec.pslice J.taskStep) (fun x => x.steps)
      (fun (x : Workflow) v => { x with steps := v }) ∧
    Member J.workflow "inputs" false (JCodec.pslice J.taskInput) (fun x => x.inputs)
      (fun (x : Workflow) v => { x with inputs := v }) ∧
    Member J.workflow "outputs" false (JCodec.pslice J.taskOutput) (fun x => x.outputs)
      (fun (x : Workflow) v => { x with outputs := v }) ∧
    Member J.workflow "timeStart" false JCodec.string (fun x => x.timeStart)
      (fun (x : Workflow) v => { x with timeStart := v }) ∧
    Member J.workflow "timeEnd" false JCodec.string (fun x => x.timeEnd)
      (fun (x : Workflow) v => { x with timeEnd := v }) ∧
    Member J.workflow "workspaces" false (JCodec.pslice J.taskWorkspace) (fun x => x.workspaces)
      (fun (x : Workflow) v => { x with workspaces := v }) ∧
    Member J.workflow "runtimeTopology" false (JCodec.pslice J.dependency) (fun x => x.runtimeTopology)
      (fun (x : Workflow) v => { x with runtimeTopology := v }) ∧
    Member J.workflow "properties" false (JCodec.pslice J.property) (fun x => x.properties)
      (fun (x : Workflow) v => { x with properties := v }) := by
  have hd : JFields.NamesDistinct J.workflowFields :=
    show (List.map Json.foldKey ["bom-ref", "uid", "name", "description", "resourceReferences", "tasks", "taskDependencies", "taskTypes", "trigger", "steps", "inputs", "outputs", "timeStart", "timeEnd", "workspaces", "runtimeTopology", "properties"]).Nodup by decide +kernel
  have ho := struct_object J.workflowFields Workflow.toP Workflow.ofP (fun s => by cases s; rfl) (fun _ => rfl) ["bom-ref", "uid", "name", "description", "resourceReferences", "tasks", "taskDependencies", "taskTypes", "trigger", "steps", "inputs", "outputs", "timeStart", "timeEnd", "workspaces", "runtimeTopology", "properties"] rfl
  exact ⟨ho,
    (struct_member (F := J.workflowFields) (toP := Workflow.toP) (ofP := Workflow.ofP) .here hd (fun _ => rfl) (fun _ _ => rfl)),
    (struct_member (F := J.workflowFields) (toP := Workflow.toP) (ofP := Workflow.ofP) (.there .here) hd (fun _ => rfl) (fun _ _ => rfl)),
    (struct_member (F := J.workflowFields) (toP := Workflow.toP) (ofP := Workflow.ofP) (.there (.there .here)) hd (fun _ => rfl) (fun _ _ => rfl)),
    (struct_member (F := J.workflowFields) (toP := Workflow.toP) (ofP := Workflow.ofP) (.there (.there (.there .here))) hd (fun _ => rfl) (fun _ _ => rfl)),
    (struct_member (F := J.workflowFields) (toP := Workflow.toP) (ofP := Workflow.ofP) (.there (.there (.there (.there .here)))) hd (fun _ => rfl) (fun _ _ => rfl)),
    (struct_member (F := J.workflowFields) (toP := Workflow.toP) (ofP := Workflow.ofP) (.there (.there (.there (.there (.there .here))))) hd (fun _ => rfl) (fun _ _ => rfl)),
    (struct_member (F := J.workflowFields) (toP := Workflow.toP) (ofP := Workflow.ofP) (.there (.there (.there (.there (.there (.there .here)))))) hd (fun _ => rfl) (fun _ _ => rfl)),
    (struct_member (F := J.workflowFields) (toP := Workflow.toP) (ofP := Workflow.ofP) (.there (.there (.there (.there (.there (.there (.there .here))))))) hd (fun _ => rfl) (fun _ _ => rfl)),
    (struct_member (F := J.workflowFields) (toP := Workflow.toP) (ofP := Workflow.ofP) (.there (.there (.there (.there (.there (.there (.there (.there .here)))))))) hd (fun _ => rfl) (fun _ _ => rfl)),
    (struct_member (F := J.workflowFields) (toP := Workflow.toP) (ofP := Workflow.ofP) (.there (.there (.there (.there (.there (.there (.there (.there (.there .here))))))))) hd (fun _ => rfl) (fun _ _ => rfl)),
    (struct_member (F := J.workflowFields) (toP := Workflow.toP) (ofP := Workflow.ofP) (.there (.there (.there (.there (.there (.there (.there (.there (.there (.there .here)))))))))) hd (fun _ => rfl) (fun _ _ => rfl)),
    (struct_member (F := J.workflowFields) (toP := Workflow.toP) (ofP := Workflow.ofP) (.there (.there (.there (.there (.there (.there (.there (.there (.there (.there (.there .here))))))))))) hd (fun _ => rfl) (fun _ _ => rfl)),
    (struct_member (F := J.workflowFields) (toP := Workflow.toP) (ofP := Workflow.ofP) (.there (.there (.there (.there (.there (.there (.there (.there (.there (.there (.there (.there .here)))))))))))) hd (fun _ => rfl) (fun _ _ => rfl)),
    (struct_member (F := J.workflowFields) (toP := Workflow.toP) (ofP := Workflow.ofP) (.there (.there (.there (.there (.there (.there (.there (.there (.there (.there (.there (.there (.there .here))))))))))))) hd (fun _ => rfl) (fun _ _ => rfl)),
    (struct_member (F := J.workflowFields) (toP := Workflow.toP) (ofP := Workflow.ofP) (.there (.there (.there (.there (.there (.there (.there (.there (.there (.there (.there (.there (.there (.there .here)))))))))))))) hd (fun _ => rfl) (fun _ _ => rfl)),
    (struct_member (F := J.workflowFields) (toP := Workflow.toP) (ofP := Workflow.ofP) (.there (.there (.there (.there (.there (.there (.there (.there (.there (.there (.there (.there (.there (.there (.there .here))))))))))))))) hd (fun _ => rfl) (fun _ _ => rfl)),
    (struct_member (F := J.workflowFields) (toP := Workflow.toP) (ofP := Workflow.ofP) (.there (.there (.there (.there (.there (.there (.there (.there (.there (.there (.there (.there (.there (.there (.there (.there .here)))))))))))))))) hd (fun _ => rfl) (fun _ _ => rfl))⟩

/-- cyclonedx.go:800-806 -/
theorem json_members_formula :
    Object J.formula ["bom-ref", "components", "services", "workflows", "properties"] ∧
    Member J.formula "bom-ref" false JCodec.string (fun x => x.bomRef)
      (fun (x : Formula) v => { x with bomRef := v }) ∧
    Member J.formula "components" false (JCodec.pslice J.component) (fun x => x.components)
      (fun (x : Formula) v => { x with components := v }) ∧
    Member J.formula "services" false (JCodec.pslice J.service) (fun x => x.services)
      (fun (x : Formula) v => { x with services := v }) ∧
    Member J.formula "workflows" false (JCodec.pslice J.workflow) (fun x => x.workflows)
      (fun (x : Formula) v => { x with workflows := v }) ∧
    Member J.formula "properties" false (JCodec.pslice J.property) (fun x => x.properties)
      (fun (x : Formula) v => { x with properties := v }) := by
  have hd : JFields.NamesDistinct J.formulaFields :=
    show (List.map Json.foldKey ["bom-ref", "components", "services", "workflows", "properties"]).Nodup by decide +kernel
  have ho := struct_object J.formulaFields Formula.toP Formula.ofP (fun s => by cases s; rfl) (fun _ => rfl) ["bom-ref", "components", "services", "workflows", "properties"] rfl
  exact ⟨ho,
    (struct_member (F := J.formulaFields) (toP := Formula.toP) (ofP := Formula.ofP) .here hd (fun _ => rfl) (fun _ _ => rfl)),
    (struct_member (F := J.formulaFields) (toP := Formula.toP) (ofP := Formula.ofP) (.there .here) hd (fun _ => rfl) (fun _ _ => rfl)),
    (struct_member (F := J.formulaFields) (toP := Formula.toP) (ofP := Formula.ofP) (.there (.there .here)) hd (fun _ => rfl) (fun _ _ => rfl)),
    (struct_member (F := J.formulaFields) (toP := Formula.toP) (ofP := Formula.ofP) (.there (.there (.there .here))) hd (fun _ => rfl) (fun _ _ => rfl)),
    (struct_member (F := J.formulaFields) (toP := Formula.toP) (ofP := Formula.ofP) (.there (.there (.there (.there .here)))) hd (fun _ => rfl) (fun _ _ => rfl))⟩

/-- cyclonedx.go:1006-1010 -/
theorem json_members_lifecycle :
    Object J.lifecycle ["name", "phase", "description"] ∧
    Member J.lifecycle "name" false JCodec.string (fun x => x.name)
      (fun (x : Lifecycle) v => { x with name := v }) ∧
    Member J.lifecycle "phase" false JCodec.string (fun x => x.phase)
      (fun (x : Lifecycle) v => { x with phase := v }) ∧
    Member J.lifecycle "description" false JCodec.string (fun x => x.description)
      (fun (x : Lifecycle) v => { x with description := v }) := by
  have hd : JFields.NamesDistinct J.lifecycleFields :=
    show (List.map Json.foldKey ["name", "phase", "description"]).Nodup by decide +kernel
  have ho := struct_object J.lifecycleFields Lifecycle.toP Lifecycle.ofP (fun s => by cases s; rfl) (fun _ => rfl) ["name", "phase", "description"] rfl
  exact ⟨ho,
    (struct_member (F := J.lifecycleFields) (toP := Lifecycle.toP) (ofP := Lifecycle.ofP) .here hd (fun _ => rfl) (fun _ _ => rfl)),
    (struct_member (F := J.lifecycleFields) (toP := Lifecycle.toP) (ofP := Lifecycle.ofP) (.there .here) hd (fun _ => rfl) (fun _ _ => rfl)),
    (struct_member (F := J.lifecycleFields) (toP := Lifecycle.toP) (ofP := Lifecycle.ofP) (.there (.there .here)) hd (fun _ => rfl) (fun _ _ => rfl))⟩

/-- cyclonedx.go:1594-1600 -/
theorem json_members_tool :
    Object J.tool ["vendor", "name", "version", "hashes", "externalReferences"] ∧
    Member J.tool "vendor" false JCodec.string (fun x => x.vendor)
      (fun (x : Tool) v => { x with vendor := v }) ∧
    Member J.tool "name" true JCodec.string (fun x => x.name)
      (fun (x : Tool) v => { x with name := v }) ∧
    Member J.tool "version" false JCodec.string (fun x => x.version)
      (fun (x : Tool) v => { x with version := v }) ∧
    Member J.tool "hashes" false (JCodec.pslice J.hash) (fun x => x.hashes)
      (fun (x : Tool) v => { x with hashes := v }) ∧
    Member J.tool "externalReferences" false (JCodec.pslice J.externalReference) (fun x => x.externalReferences)
      (fun (x : Tool) v => { x with externalReferences := v }) := by
  have hd : JFields.NamesDistinct J.toolFields :=
    show (List.map Json.foldKey ["vendor", "name", "version", "hashes", "externalReferences"]).Nodup by decide +kernel
  have ho := struct_object J.toolFields Tool.toP Tool.ofP (fun s => by cases s; rfl) (fun _ => rfl) ["vendor", "name", "version", "hashes", "externalReferences"] rfl
  exact ⟨ho,
    (struct_member (F := J.toolFields) (toP := Tool.toP) (ofP := Tool.ofP) .here hd (fun _ => rfl) (fun _ _ => rfl)),
    (struct_member (F := J.toolFields) (toP := Tool.toP) (ofP := Tool.ofP) (.there .here) hd (fun _ => rfl) (fun _ _ => rfl)),
    (struct_member (F := J.toolFields) (toP := Tool.toP) (ofP := Tool.ofP) (.there (.there .here)) hd (fun _ => rfl) (fun _ _ => rfl)),
    (struct_member (F := J.toolFields) (toP := Tool.toP) (ofP := Tool.ofP) (.there (.there (.there .here))) hd (fun _ => rfl) (fun _ _ => rfl)),
    (struct_member (F := J.toolFields) (toP := Tool.toP) (ofP := Tool.ofP) (.there (.there (.there (.there .here)))) hd (fun _ => rfl) (fun _ _ => rfl))⟩

/-- cyclonedx.go:1809-1811 -/
theorem json_members_distributionConstraints :
    Object J.distributionConstraints ["tlp"] ∧
    Member J.distributionConstraints "tlp" false JCodec.string (fun x => x.tlp)
      (fun (x : DistributionConstraints) v => { x with tlp := v }) := by
  have hd : JFields.NamesDistinct J.distributionConstraintsFields :=
    show (List.map Json.foldKey ["tlp"]).Nodup by decide +kernel
  have ho := struct_object J.distributionConstraintsFields DistributionConstraints.toP DistributionConstraints.ofP (fun s => by cases s; rfl) (fun _ => rfl) ["tlp"] rfl
  exact ⟨ho,
    (struct_member (F := J.distributionConstraintsFields) (toP := DistributionConstraints.toP) (ofP := DistributionConstraints.ofP) .here hd (fun _ => rfl) (fun _ _ => rfl))⟩

/-- cyclonedx.go:1042-1054 -/
theorem json_members_metadata :
    Object J.metadata ["timestamp", "lifecycles", "tools", "authors", "component", "manufacture", "manufacturer", "supplier", "licenses", "properties", "distributionConstraints"] ∧
    Member J.metadata "timestamp" false JCodec.string (fun x => x.timestamp)
      (fun (x : Metadata) v => { x with timestamp := v }) ∧
    Member J.metadata "lifecycles" false (JCodec.pslice J.lifecycle) (fun x => x.lifecycles)
      (fun (x : Metadata) v => { x with lifecycles := v }) ∧
    Member J.metadata "tools" false (JCodec.option J.toolsChoice) (fun x => x.tools)
      (fun (x : Metadata) v => { x with tools := v }) ∧
    Member J.metadata "authors" false (JCodec.pslice J.organizationalContact) (fun x => x.authors)
      (fun (x : Metadata) v => { x with authors := v }) ∧
    Member J.metadata "component" false (JCodec.option J.component) (fun x => x.component)
      (fun (x : Metadata) v => { x with component := v }) ∧
    Member J.metadata "manufacture" false (JCodec.option J.organizationalEntity) (fun x => x.manufacture)
      (fun (x : Metadata) v => { x with manufacture := v }) ∧
    Member J.metadata "manufacturer" false (JCodec.option J.organizationalEntity) (fun x => x.manufacturer)
      (fun (x : Metadata) v => { x with manufacturer := v }) ∧
    Member J.metadata "supplier" false (JCodec.option J.organizationalEntity) (fun x => x.supplier)
      (fun (x : Metadata) v => { x with supplier := v }) ∧
    Member J.metadata "licenses" false (JCodec.pslice J.licenseChoice) (fun x => x.licenses)
      (fun (x : Metadata) v => { x with licenses := v }) ∧
    Member J.metadata "properties" false (JCodec.pslice J.property) (fun x => x.properties)
      (fun (x : Metadata) v => { x with properties := v }) ∧
    Member J.metadata "distributionConstraints" false (JCodec.option J.distributionConstraints) (fun x => x.distributionConstraints)
      (fun (x : Metadata) v => { x with distributionConstraints := v }) := by
  have hd : JFields.NamesDistinct J.metadataFields :=
    show (List.map Json.foldKey ["timestamp", "lifecycles", "tools", "authors", "component", "manufacture", "manufacturer", "supplier", "licenses", "properties", "distributionConstraints"]).Nodup by decide +kernel
  have ho := struct_object J.metadataFields Metadata.toP Metadata.ofP (fun s => by cases s; rfl) (fun _ => rfl) ["timestamp", "lifecycles", "tools", "authors", "component", "manufacture", "manufacturer", "supplier", "licenses", "properties", "distributionConstraints"] rfl
  exact ⟨ho,
    (struct_member (F := J.metadataFields) (toP := Metadata.toP) (ofP := Metadata.ofP) .here hd (fun _ => rfl) (fun _ _ => rfl)),
    (struct_member (F := J.metadataFields) (toP := Metadata.toP) (ofP := Metadata.ofP) (.there .here) hd (fun _ => rfl) (fun _ _ => rfl)),
    (struct_member (F := J.metadataFields) (toP := Metadata.toP) (ofP := Metadata.ofP) (.there (.there .here)) hd (fun _ => rfl) (fun _ _ => rfl)),
    (struct_member (F := J.metadataFields) (toP := Metadata.toP) (ofP := Metadata.ofP) (.there (.there (.there .here))) hd (fun _ => rfl) (fun _ _ => rfl)),
    (struct_member (F := J.metadataFields) (toP := Metadata.toP) (ofP := Metadata.ofP) (.there (.there (.there (.there .here)))) hd (fun _ => rfl) (fun _ _ => rfl)),
    (struct_member (F := J.metadataFields) (toP := Metadata.toP) (ofP := Metadata.ofP) (.there (.there (.there (.there (.there .here))))) hd (fun _ => rfl) (fun _ _ => rfl)),
    (struct_member (F := J.metadataFields) (toP := Metadata.toP) (ofP := Metadata.ofP) (.there (.there (.there (.there (.there (.there .here)))))) hd (fun _ => rfl) (fun _ _ => rfl)),
    (struct_member (F := J.metadataFields) (toP := Metadata.toP) (ofP := Metadata.ofP) (.there (.there (.there (.there (.there (.there (.there .here))))))) hd (fun _ => rfl) (fun _ _ => rfl)),
    (struct_member (F := J.metadataFields) (toP := Metadata.toP) (ofP := Metadata.ofP) (.there (.there (.there (.there (.there (.there (.there (.there .here)))))))) hd (fun _ => rfl) (fun _ _ => rfl)),
    (struct_member (F := J.metadataFields) (toP := Metadata.toP) (ofP := Metadata.ofP) (.there (.there (.there (.there (.there (.there (.there (.there (.there .here))))))))) hd (fun _ => rfl) (fun _ _ => rfl)),
    (struct_member (F := J.metadataFields) (toP := Metadata.toP) (ofP := Metadata.ofP) (.there (.there (.there (.there (.there (.there (.there (.there (.there (.there .here)))))))))) hd (fun _ => rfl) (fun _ _ => rfl))⟩

/-- cyclonedx.go:349-352 -/
theorem json_members_credits :
    Object J.credits ["organizations", "individuals"] ∧
    Member J.credits "organizations" false (JCodec.pslice J.organizationalEntity) (fun x => x.organizations)
      (fun (x : Credits) v => { x with organizations := v }) ∧
    Member J.credits "individuals" false (JCodec.pslice J.organizationalContact) (fun x => x.individuals)
      (fun (x : Credits) v => { x with individuals := v }) := by
  have hd : JFields.NamesDistinct J.creditsFields :=
    show (List.map Json.foldKey ["organizations", "individuals"]).Nodup by decide +kernel
  have ho := struct_object J.creditsFields Credits.toP Credits.ofP (fun s => by cases s; rfl) (fun _ => rfl) ["organizations", "individuals"] rfl
  exact ⟨ho,
    (struct_member (F := J.creditsFields) (toP := Credits.toP) (ofP := Credits.ofP) .here hd (fun _ => rfl) (fun _ _ => rfl)),
    (struct_member (F := J.creditsFields) (toP := Credits.toP) (ofP := Credits.ofP) (.there .here) hd (fun _ => rfl) (fun _ _ => rfl))⟩

/-- cyclonedx.go:1271-1275 -/
theorem json_members_proofOfConcept :
    Object J.proofOfConcept ["reproductionSteps", "environment", "supportingMaterial"] ∧
    Member J.proofOfConcept "reproductionSteps" false JCodec.string (fun x => x.reproductionSteps)
      (fun (x : ProofOfConcept) v => { x with reproductionSteps := v }) ∧
    Member J.proofOfConcept "environment" false JCodec.string (fun x => x.environment)
      (fun (x : ProofOfConcept) v => { x with environment := v }) ∧
    Member J.proofOfConcept "supportingMaterial" false (JCodec.pslice J.attachedText) (fun x => x.supportingMaterial)
      (fun (x : ProofOfConcept) v => { x with supportingMaterial := v }) := by
  have hd : JFields.NamesDistinct J.proofOfConceptFields :=
    show (List.map Json.foldKey ["reproductionSteps", "environment", "supportingMaterial"]).Nodup by decide +kernel
  have ho := struct_object J.proofOfConceptFields ProofOfConcept.toP ProofOfConcept.ofP (fun s => by cases s; rfl) (fun _ => rfl) ["reproductionSteps", "environment", "supportingMaterial"] rfl
  exact ⟨ho,
    (struct_member (F := J.proofOfConceptFields) (toP := ProofOfConcept.toP) (ofP := ProofOfConcept.ofP) .here hd (fun _ => rfl) (fun _ _ => rfl)),
    (struct_member (F := J.proofOfConceptFields) (toP := ProofOfConcept.toP) (ofP := ProofOfConcept.ofP) (.there .here) hd (fun _ => rfl) (fun _ _ => rfl)),
    (struct_member (F := J.proofOfConceptFields) (toP := ProofOfConcept.toP) (ofP := ProofOfConcept.ofP) (.there (.there .here)) hd (fun _ => rfl) (fun _ _ => rfl))⟩

/-- cyclonedx.go:1658-1665 -/
theorem json_members_vulnerabilityAnalysis :
    Object J.vulnerabilityAnalysis ["state", "justification", "response", "detail", "firstIssued", "lastUpdated"] ∧
    Member J.vulnerabilityAnalysis "state" false JCodec.string (fun x => x.state)
      (fun (x : VulnerabilityAnalysis) v => { x with state := v }) ∧
    Member J.vulnerabilityAnalysis "justification" false JCodec.string (fun x => x.justification)
      (fun (x : VulnerabilityAnalysis) v => { x with justification := v }) ∧
    Member J.vulnerabilityAnalysis "response" false (JCodec.pslice JCodec.string) (fun x => x.response)
      (fun (x : VulnerabilityAnalysis) v => { x with response := v }) ∧
    Member J.vulnerabilityAnalysis "detail" false JCodec.string (fun x => x.detail)
      (fun (x : VulnerabilityAnalysis) v => { x with detail := v }) ∧
    Member J.vulnerabilityAnalysis "firstIssued" false JCodec.string (fun x => x.firstIssued)
      (fun (x : VulnerabilityAnalysis) v => { x with firstIssued := v }) ∧
    Member J.vulnerabilityAnalysis "lastUpdated" false JCodec.string (fun x => x.lastUpdated)
      (fun (x : VulnerabilityAnalysis) v => { x with lastUpdated := v }) := by
  have hd : JFields.NamesDistinct J.vulnerabilityAnalysisFields :=
    show (List.map Json.foldKey ["state", "justification", "response", "detail", "firstIssued", "lastUpdated"]).Nodup by decide +kernel
  have ho := struct_object J.vulnerabilityAnalysisFields VulnerabilityAnalysis.toP VulnerabilityAnalysis.ofP (fun s => by cases s; rfl) (fun _ => rfl) ["state", "justification", "response", "detail", "firstIssued", "lastUpdated"] rfl
  exact ⟨ho,
    (struct_member (F := J.vulnerabilityAnalysisFields) (toP := VulnerabilityAnalysis.toP) (ofP := VulnerabilityAnalysis.ofP) .here hd (fun _ => rfl) (fun _ _ => rfl)),
    (struct_member (F := J.vulnerabilityAnalysisFields) (toP := VulnerabilityAnalysis.toP) (ofP := VulnerabilityAnalysis.ofP) (.there .here) hd (fun _ => rfl) (fun _ _ => rfl)),
    (struct_member (F := J.vulnerabilityAnalysisFields) (toP := VulnerabilityAnalysis.toP) (ofP := VulnerabilityAnalysis.ofP) (.there (.there .here)) hd (fun _ => rfl) (fun _ _ => rfl)),
    (struct_member (F := J.vulnerabilityAnalysisFields) (toP := VulnerabilityAnalysis.toP) (ofP := VulnerabilityAnalysis.ofP) (.there (.there (.there .here))) hd (fun _ => rfl) (fun _ _ => rfl)),
    (struct_member (F := J.vulnerabilityAnalysisFields) (toP := VulnerabilityAnalysis.toP) (ofP := VulnerabilityAnalysis.ofP) (.there (.there (.there (.there .here)))) hd (fun _ => rfl) (fun _ _ => rfl)),
    (struct_member (F := J.vulnerabilityAnalysisFields) (toP := VulnerabilityAnalysis.toP) (ofP := VulnerabilityAnalysis.ofP) (.there (.there (.there (.there (.there .here))))) hd (fun _ => rfl) (fun _ _ => rfl))⟩

/-- cyclonedx.go:1667-1674 -/
theorem json_members_vulnerabilityRating :
    Object J.vulnerabilityRating ["source", "score", "severity", "method", "vector", "justification"] ∧
    Member J.vulnerabilityRating "source" false (JCodec.option J.source) (fun x => x.source)
      (fun (x : VulnerabilityRating) v => { x with source := v }) ∧
    Member J.vulnerabilityRating "score" false (JCodec.option JCodec.f64) (fun x => x.score)
      (fun (x : VulnerabilityRating) v => { x with score := v }) ∧
    Member J.vulnerabilityRating "severity" false JCodec.string (fun x => x.severity)
      (fun (x : VulnerabilityRating) v => { x with severity := v }) ∧
    Member J.vulnerabilityRating "method" false JCodec.string (fun x => x.method)
      (fun (x : VulnerabilityRating) v => { x with method := v }) ∧
    Member J.vulnerabilityRating "vector" false JCodec.string (fun x => x.vector)
      (fun (x : VulnerabilityRating) v => { x with vector := v }) ∧
    Member J.vulnerabilityRating "justification" false JCodec.string (fun x => x.justification)
      (fun (x : VulnerabilityRating) v => { x with justification := v }) := by
  have hd : JFields.NamesDistinct J.vulnerabilityRatingFields :=
    show (List.map Json.foldKey ["source", "score", "severity", "method", "vector", "justification"]).Nodup by decide +kernel
  have ho := struct_object J.vulnerabilityRatingFields VulnerabilityRating.toP VulnerabilityRating.ofP (fun s => by cases s; rfl) (fun _ => rfl) ["source", "score", "severity", "method", "vector", "justification"] rfl
  exact ⟨ho,
    (struct_member (F := J.vulnerabilityRatingFields) (toP := VulnerabilityRating.toP) (ofP := VulnerabilityRating.ofP) .here hd (fun _ => rfl) (fun _ _ => rfl)),
    (struct_member (F := J.vulnerabilityRatingFields) (toP := VulnerabilityRating.toP) (ofP := VulnerabilityRating.ofP) (.there .here) hd (fun _ => rfl) (fun _ _ => rfl)),
    (struct_member (F := J.vulnerabilityRatingFields) (toP := VulnerabilityRating.toP) (ofP := VulnerabilityRating.ofP) (.there (.there .here)) hd (fun _ => rfl) (fun _ _ => rfl)),
    (struct_member (F := J.vulnerabilityRatingFields) (toP := VulnerabilityRating.toP) (ofP := VulnerabilityRating.ofP) (.there (.there (.there .here))) hd (fun _ => rfl) (fun _ _ => rfl)),
    (struct_member (F := J.vulnerabilityRatingFields) (toP := VulnerabilityRating.toP) (ofP := VulnerabilityRating.ofP) (.there (.there (.there (.there .here)))) hd (fun _ => rfl) (fun _ _ => rfl)),
    (struct_member (F := J.vulnerabilityRatingFields) (toP := VulnerabilityRating.toP) (ofP := VulnerabilityRating.ofP) (.there (.there (.there (.there (.there .here))))) hd (fun _ => rfl) (fun _ _ => rfl))⟩

/-- cyclonedx.go:1676-1679 -/
theorem json_members_vulnerabilityReference :
    Object J.vulnerabilityReference ["id", "source"] ∧
    Member J.vulnerabilityReference "id" false JCodec.string (fun x => x.id)
      (fun (x : VulnerabilityReference) v => { x with id := v }) ∧
    Member J.vulnerabilityReference "source" false (JCodec.option J.source) (fun x => x.source)
      (fun (x : VulnerabilityReference) v => { x with source := v }) := by
  have hd : JFields.NamesDistinct J.vulnerabilityReferenceFields :=
    show (List.map Json.foldKey ["id", "source"]).Nodup by decide +kernel
  have ho := struct_object J.vulnerabilityReferenceFields VulnerabilityReference.toP VulnerabilityReference.ofP (fun s => by cases s; rfl) (fun _ => rfl) ["id", "source"] rfl
  exact ⟨ho,
    (struct_member (F := J.vulnerabilityReferenceFields) (toP := VulnerabilityReference.toP) (ofP := VulnerabilityReference.ofP) .here hd (fun _ => rfl) (fun _ _ => rfl)),
    (struct_member (F := J.vulnerabilityReferenceFields) (toP := VulnerabilityReference.toP) (ofP := VulnerabilityReference.ofP) (.there .here) hd (fun _ => rfl) (fun _ _ => rfl))⟩

/-- cyclonedx.go:1634-1656 -/
theorem json_members_vulnerability :
    Object J.vulnerability ["bom-ref", "id", "source", "references", "ratings", "cwes", "description", "detail", "recommendation", "workaround", "proofOfConcept", "advisories", "created", "published", "updated", "rejected", "credits", "tools", "analysis", "affects", "properties"] ∧
    Member J.vulnerability "bom-ref" false JCodec.string (fun x => x.bomRef)
      (fun (x : Vulnerability) v => { x with bomRef := v }) ∧
    Member J.vulnerability "id" true JCodec.string (fun x => x.id)
      (fun (x : Vulnerability) v => { x with id := v }) ∧
    Member J.vulnerability "source" false (JCodec.option J.source) (fun x => x.source)
      (fun (x : Vulnerability) v => { x with source := v }) ∧
    Member J.vulnerability "references" false (JCodec.pslice J.vulnerabilityReference) (fun x => x.references)
      (fun (x : Vulnerability) v => { x with references := v }) ∧
    Member J.vulnerability "ratings" false (JCodec.pslice J.vulnerabilityRating) (fun x => x.ratings)
      (fun (x : Vulnerability) v => { x with ratings := v }) ∧
    Member J.vulnerability "cwes" false (JCodec.pslice JCodec.int) (fun x => x.cwes)
      (fun (x : Vulnerability) v => { x with cwes := v }) ∧
    Member J.vulnerability "description" false JCodec.string (fun x => x.description)
      (fun (x : Vulnerability) v => { x with description := v }) ∧
    Member J.vulnerability "detail" false JCodec.string (fun x => x.detail)
      (fun (x : Vulnerability) v => { x with detail := v }) ∧
    Member J.vulnerability "recommendation" false JCodec.string (fun x => x.recommendation)
      (fun (x : Vulnerability) v => { x with recommendation := v }) ∧
    Member J.vulnerability "workaround" false JCodec.string (fun x => x.workaround)
      (fun (x : Vulnerability) v => { x with workaround := v }) ∧
    Member J.vulnerability "proofOfConcept" false (JCodec.option J.proofOfConcept) (fun x => x.proofOfConcept)
      (fun (x : Vulnerability) v => { x with proofOfConcept := v }) ∧
    Member J.vulnerability "advisories" false (JCodec.pslice J.advisory) (fun x => x.advisories)
      (fun (x : Vulnerability) v => { x with advisories := v }) ∧
    Member J.vulnerability "created" false JCodec.string (fun x => x.created)
      (fun (x : Vulnerability) v => { x with created := v }) ∧
    Member J.vulnerability "published" false JCodec.string (fun x => x.published)
      (fun (x : Vulnerability) v => { x with published := v }) ∧
    Member J.vulnerability "updated" false JCodec.string (fun x => x.updated)
      (fun (x : Vulnerability) v => { x with updated := v }) ∧
    Member J.vulnerability "rejected" false JCodec.string (fun x => x.rejected)
      (fun (x : Vulnerability) v => { x with rejected := v }) ∧
    Member J.vulnerability "credits" false (JCodec.option J.credits) (fun x => x.credits)
      (fun (x : Vulnerability) v => { x with credits := v }) ∧
    Member J.vulnerability "tools" false (JCodec.option J.toolsChoice) (fun x => x.tools)
      (fun (x : Vulnerability) v => { x with tools := v }) ∧
    Member J.vulnerability "analysis" false (JCodec.option J.vulnerabilityAnalysis) (fun x => x.analysis)
      (fun (x : Vulnerability) v => { x with analysis := v }) ∧
    Member J.vulnerability "affects" false (JCodec.pslice J.affects) (fun x => x.affects)
      (fun (x : Vulnerability) v => { x with affects := v }) ∧
    Member J.vulnerability "properties" false (JCodec.pslice J.property) (fun x => x.properties)
      (fun (x : Vulnerability) v => { x with properties := v }) := by
  have hd : JFields.NamesDistinct J.vulnerabilityFields :=
    show (List.map Json.foldKey ["bom-ref", "id", "source", "references", "ratings", "cwes", "description", "detail", "recommendation", "workaround", "proofOfConcept", "advisories", "created", "published", "updated", "rejected", "credits", "tools", "analysis", "affects", "properties"]).Nodup by decide +kernel
  have ho := struct_object J.vulnerabilityFields Vulnerability.toP Vulnerability.ofP (fun s => by cases s; rfl) (fun _ => rfl) ["bom-ref", "id", "source", "references", "ratings", "cwes", "description", "detail", "recommendation", "workaround", "proofOfConcept", "advisories", "created", "published", "updated", "rejected", "credits", "tools", "analysis", "affects", "properties"] rfl
  exact ⟨ho,
    (struct_member (F := J.vulnerabilityFields) (toP := Vulnerability.toP) (ofP := Vulnerability.ofP) .here hd (fun _ => rfl) (fun _ _ => rfl)),
    (struct_member (F := J.vulnerabilityFields) (toP := Vulnerability.toP) (ofP := Vulnerability.ofP) (.there .here) hd (fun _ => rfl) (fun _ _ => rfl)),
    (struct_member (F := J.vulnerabilityFields) (toP := Vulnerability.toP) (ofP := Vulnerability.ofP) (.there (.there .here)) hd (fun _ => rfl) (fun _ _ => rfl)),
    (struct_member (F := J.vulnerabilityFields) (toP := Vulnerability.toP) (ofP := Vulnerability.ofP) (.there (.there (.there .here))) hd (fun _ => rfl) (fun _ _ => rfl)),
    (struct_member (F := J.vulnerabilityFields) (toP := Vulnerability.toP) (ofP := Vulnerability.ofP) (.there (.there (.there (.there .here)))) hd (fun _ => rfl) (fun _ _ => rfl)),
    (struct_member (F := J.vulnerabilityFields) (toP := Vulnerability.toP) (ofP := Vulnerability.ofP) (.there (.there (.there (.there (.there .here))))) hd (fun _ => rfl) (fun _ _ => rfl)),
    (struct_member (F := J.vulnerabilityFields) (toP := Vulnerability.toP) (ofP := Vulnerability.ofP) (.there (.there (.there (.there (.there (.there .here)))))) hd (fun _ => rfl) (fun _ _ => rfl)),
    (struct_member (F := J.vulnerabilityFields) (toP := Vulnerability.toP) (ofP := Vulnerability.ofP) (.there (.there (.there (.there (.there (.there (.there .here))))))) hd (fun _ => rfl) (fun _ _ => rfl)),
    (struct_member (F := J.vulnerabilityFields) (toP := Vulnerability.toP) (ofP := Vulnerability.ofP) (.there (.there (.there (.there (.there (.there (.there (.there .here)))))))) hd (fun _ => rfl) (fun _ _ => rfl)),
    (struct_member (F := J.vulnerabilityFields) (toP := Vulnerability.toP) (ofP := Vulnerability.ofP) (.there (.there (.there (.there (.there (.there (.there (.there (.there .here))))))))) hd (fun _ => rfl) (fun _ _ => rfl)),
    (struct_member (F := J.vulnerabilityFields) (toP := Vulnerability.toP) (ofP := Vulnerability.ofP) (.there (.there (.there (.there (.there (.there (.there (.there (.there (.there .here)))))))))) hd (fun _ => rfl) (fun _ _ => rfl)),
    (struct_member (F := J.vulnerabilityFields) (toP := Vulnerability.toP) (ofP := Vulnerability.ofP) (.there (.there (.there (.there (.there (.there (.there (.there (.there (.there (.there .here))))))))))) hd (fun _ => rfl) (fun _ _ => rfl)),
    (struct_member (F := J.vulnerabilityFields) (toP := Vulnerability.toP) (ofP := Vulnerability.ofP) (.there (.there (.there (.there (.there (.there (.there (.there (.there (.there (.there (.there .here)))))))))))) hd (fun _ => rfl) (fun _ _ => rfl)),
    (struct_member (F := J.vulnerabilityFields) (toP := Vulnerability.toP) (ofP := Vulnerability.ofP) (.there (.there (.there (.there (.there (.there (.there (.there (.there (.there (.there (.there (.there .here))))))))))))) hd (fun _ => rfl) (fun _ _ => rfl)),
    (struct_member (F := J.vulnerabilityFields) (toP := Vulnerability.toP) (ofP := Vulnerability.ofP) (.there (.there (.there (.there (.there (.there (.there (.there (.there (.there (.there (.there (.there (.there .here)))))))))))))) hd (fun _ => rfl) (fun _ _ => rfl)),
    (struct_member (F := J.vulnerabilityFields) (toP := Vulnerability.toP) (ofP := Vulnerability.ofP) (.there (.there (.there (.there (.there (.there (.there (.there (.there (.there (.there (.there (.there (.there (.there .here))))))))))))))) hd (fun _ => rfl) (fun _ _ => rfl)),
    (struct_member (F := J.vulnerabilityFields) (toP := Vulnerability.toP) (ofP := Vulnerability.ofP) (.there (.there (.there (.there (.there (.there (.there (.there (.there (.there (.there (.there (.there (.there (.there (.there .here)))))))))))))))) hd (fun _ => rfl) (fun _ _ => rfl)),
    (struct_member (F := J.vulnerabilityFields) (toP := Vulnerability.toP) (ofP := Vulnerability.ofP) (.there (.there (.there (.there (.there (.there (.there (.there (.there (.there (.there (.there (.there (.there (.there (.there (.there .here))))))))))))))))) hd (fun _ => rfl) (fun _ _ => rfl)),
    (struct_member (F := J.vulnerabilityFields) (toP := Vulnerability.toP) (ofP := Vulnerability.ofP) (.there (.there (.there (.there (.there (.there (.there (.there (.there (.there (.there (.there (.there (.there (.there (.there (.there (.there .here)))))))))))))))))) hd (fun _ => rfl) (fun _ _ => rfl)),
    (struct_member (F := J.vulnerabilityFields) (toP := Vulnerability.toP) (ofP := Vulnerability.ofP) (.there (.there (.there (.there (.there (.there (.there (.there (.there (.there (.there (.there (.there (.there (.there (.there (.there (.there (.there .here))))))))))))))))))) hd (fun _ => rfl) (fun _ _ => rfl)),
    (struct_member (F := J.vulnerabilityFields) (toP := Vulnerability.toP) (ofP := Vulnerability.ofP) (.there (.there (.there (.there (.there (.there (.there (.there (.there (.there (.there (.there (.there (.there (.there (.there (.there (.there (.there (.there .here)))))))))))))))))))) hd (fun _ => rfl) (fun _ _ => rfl))⟩

/-- cyclonedx.go:1712-1721 -/
theorem json_members_citation :
    Object J.citation ["bom-ref", "pointers", "expressions", "timestamp", "attributedTo", "process", "note", "signature"] ∧
    Member J.citation "bom-ref" false JCodec.string (fun x => x.bomRef)
      (fun (x : Citation) v => { x with bomRef := v }) ∧
    Member J.citation "pointers" false (JCodec.pslice JCodec.string) (fun x => x.pointers)
      (fun (x : Citation) v => { x with pointers := v }) ∧
    Member J.citation "expressions" false (JCodec.pslice JCodec.string) (fun x => x.expressions)
      (fun (x : Citation) v => { x with expressions := v }) ∧
    Member J.citation "timestamp" false JCodec.string (fun x => x.timestamp)
      (fun (x : Citation) v => { x with timestamp := v }) ∧
    Member J.citation "attributedTo" false (JCodec.option J.bomReference) (fun x => x.attributedTo)
      (fun (x : Citation) v => { x with attributedTo := v }) ∧
    Member J.citation "process" false JCodec.string (fun x => x.process)
      (fun (x : Citation) v => { x with process := v }) ∧
    Member J.citation "note" false JCodec.string (fun x => x.note)
      (fun (x : Citation) v => { x with note := v }) ∧
    Member J.citation "signature" false (JCodec.option J.jsfSignature) (fun x => x.signature)
      (fun (x : Citation) v => { x with signature := v }) := by
  have hd : JFields.NamesDistinct J.citationFields :=
    show (List.map Json.foldKey ["bom-ref", "pointers", "expressions", "timestamp", "attributedTo", "process", "note", "signature"]).Nodup by decide +kernel
  have ho := struct_object J.citationFields Citation.toP Citation.ofP (fun s => by cases s; rfl) (fun _ => rfl) ["bom-ref", "pointers", "expressions", "timestamp", "attributedTo", "process", "note", "signature"] rfl
  exact ⟨ho,
    (struct_member (F := J.citationFields) (toP := Citation.toP) (ofP := Citation.ofP) .here hd (fun _ => rfl) (fun _ _ => rfl)),
    (struct_member (F := J.citationFields) (toP := Citation.toP) (ofP := Citation.ofP) (.there .here) hd (fun _ => rfl) (fun _ _ => rfl)),
    (struct_member (F := J.citationFields) (toP := Citation.toP) (ofP := Citation.ofP) (.there (.there .here)) hd (fun _ => rfl) (fun _ _ => rfl)),
    (struct_member (F := J.citationFields) (toP := Citation.toP) (ofP := Citation.ofP) (.there (.there (.there .here))) hd (fun _ => rfl) (fun _ _ => rfl)),
    (struct_member (F := J.citationFields) (toP := Citation.toP) (ofP := Citation.ofP) (.there (.there (.there (.there .here)))) hd (fun _ => rfl) (fun _ _ => rfl)),
    (struct_member (F := J.citationFields) (toP := Citation.toP) (ofP := Citation.ofP) (.there (.there (.there (.there (.there .here))))) hd (fun _ => rfl) (fun _ _ => rfl)),
    (struct_member (F := J.citationFields) (toP := Citation.toP) (ofP := Citation.ofP) (.there (.there (.there (.there (.there (.there .here)))))) hd (fun _ => rfl) (fun _ _ => rfl)),
    (struct_member (F := J.citationFields) (toP := Citation.toP) (ofP := Citation.ofP) (.there (.there (.there (.there (.there (.there (.there .here))))))) hd (fun _ => rfl) (fun _ _ => rfl))⟩

/-- cyclonedx.go:105-131 -/
theorem json_members_bom :
    Object J.bom ["$schema", "bomFormat", "specVersion", "serialNumber", "version", "metadata", "components", "services", "externalReferences", "dependencies", "compositions", "properties", "vulnerabilities", "annotations", "formulation", "declarations", "definitions", "citations", "signature"] ∧
    Member J.bom "$schema" false JCodec.string (fun x => x.jsonSchema)
      (fun (x : BOM) v => { x with jsonSchema := v }) ∧
    Member J.bom "bomFormat" true JCodec.string (fun x => x.bomFormat)
      (fun (x : BOM) v => { x with bomFormat := v }) ∧
    Member J.bom "specVersion" true J.specVersion (fun x => x.specVersion)
      (fun (x : BOM) v => { x with specVersion := v }) ∧
    Member J.bom "serialNumber" false JCodec.string (fun x => x.serialNumber)
      (fun (x : BOM) v => { x with serialNumber := v }) ∧
    Member J.bom "version" true JCodec.int (fun x => x.version)
      (fun (x : BOM) v => { x with version := v }) ∧
    Member J.bom "metadata" false (JCodec.option J.metadata) (fun x => x.metadata)
      (fun (x : BOM) v => { x with metadata := v }) ∧
    Member J.bom "components" false (JCodec.pslice J.component) (fun x => x.components)
      (fun (x : BOM) v => { x with components := v }) ∧
    Member J.bom "services" false (JCodec.pslice J.service) (fun x => x.services)
      (fun (x : BOM) v => { x with services := v }) ∧
    Member J.bom "externalReferences" false (JCodec.pslice J.externalReference) (fun x => x.externalReferences)
      (fun (x : BOM) v => { x with externalReferences := v }) ∧
    Member J.bom "dependencies" false (JCodec.pslice J.dependency) (fun x => x.dependencies)
      (fun (x : BOM) v => { x with dependencies := v }) ∧
    Member J.bom "compositions" false (JCodec.pslice J.composition) (fun x => x.compositions)
      (fun (x : BOM) v => { x with compositions := v }) ∧
    Member J.bom "properties" false (JCodec.pslice J.property) (fun x => x.properties)
      (fun (x : BOM) v => { x with properties := v }) ∧
    Member J.bom "vulnerabilities" false (JCodec.pslice J.vulnerability) (fun x => x.vulnerabilities)
      (fun (x : BOM) v => { x with vulnerabilities := v }) ∧
    Member J.bom "annotations" false (JCodec.pslice J.annotation) (fun x => x.annotations)
      (fun (x : BOM) v => { x with annotations := v }) ∧
    Member J.bom "formulation" false (JCodec.pslice J.formula) (fun x => x.formulation)
      (fun (x : BOM) v => { x with formulation := v }) ∧
    Member J.bom "declarations" false (JCodec.option J.declarations) (fun x => x.declarations)
      (fun (x : BOM) v => { x with declarations := v }) ∧
    Member J.bom "definitions" false (JCodec.option J.definitions) (fun x => x.definitions)
      (fun (x : BOM) v => { x with definitions := v }) ∧
    Member J.bom "citations" false (JCodec.pslice J.citation) (fun x => x.citations)
      (fun (x : BOM) v => { x with citations := v }) ∧
    Member J.bom "signature" false (JCodec.option J.jsfSignature) (fun x => x.signature)
      (fun (x : BOM) v => { x with signature := v }) := by
  have hd : JFields.NamesDistinct (J.bomFields J.specVersion) :=
    show (List.map Json.foldKey ["$schema", "bomFormat", "specVersion", "serialNumber", "version", "metadata", "components", "services", "externalReferences", "dependencies", "compositions", "properties", "vulnerabilities", "annotations", "formulation", "declarations", "definitions", "citations", "signature"]).Nodup by decide +kernel
  have ho := struct_object (J.bomFields J.specVersion) BOM.toP BOM.ofP (fun s => by cases s; rfl) (fun _ => rfl) ["$schema", "bomFormat", "specVersion", "serialNumber", "version", "metadata", "components", "services", "externalReferences", "dependencies", "compositions", "properties", "vulnerabilities", "annotations", "formulation", "declarations", "definitions", "citations", "signature"] rfl
  exact ⟨ho,
    (struct_member (F := (J.bomFields J.specVersion)) (toP := BOM.toP) (ofP := BOM.ofP) (.skip (.skip .here)) hd (fun _ => rfl) (fun _ _ => rfl)),
    (struct_member (F := (J.bomFields J.specVersion)) (toP := BOM.toP) (ofP := BOM.ofP) (.skip (.skip (.there .here))) hd (fun _ => rfl) (fun _ _ => rfl)),
    (struct_member (F := (J.bomFields J.specVersion)) (toP := BOM.toP) (ofP := BOM.ofP) (.skip (.skip (.there (.there .here)))) hd (fun _ => rfl) (fun _ _ => rfl)),
    (struct_member (F := (J.bomFields J.specVersion)) (toP := BOM.toP) (ofP := BOM.ofP) (.skip (.skip (.there (.there (.there .here))))) hd (fun _ => rfl) (fun _ _ => rfl)),
    (struct_member (F := (J.bomFields J.specVersion)) (toP := BOM.toP) (ofP := BOM.ofP) (.skip (.skip (.there (.there (.there (.there .here)))))) hd (fun _ => rfl) (fun _ _ => rfl)),
    (struct_member (F := (J.bomFields J.specVersion)) (toP := BOM.toP) (ofP := BOM.ofP) (.skip (.skip (.there (.there (.there (.there (.there .here))))))) hd (fun _ => rfl) (fun _ _ => rfl)),
    (struct_member (F := (J.bomFields J.specVersion)) (toP := BOM.toP) (ofP := BOM.ofP) (.skip (.skip (.there (.there (.there (.there (.there (.there .here)))))))) hd (fun _ => rfl) (fun _ _ => rfl)),
    (struct_member (F := (J.bomFields J.specVersion)) (toP := BOM.toP) (ofP := BOM.ofP) (.skip (.skip (.there (.there (.there (.there (.there (.there (.there .here))))))))) hd (fun _ => rfl) (fun _ _ => rfl)),
    (struct_member (F := (J.bomFields J.specVersion)) (toP := BOM.toP) (ofP := BOM.ofP) (.skip (.skip (.there (.there (.there (.there (.there (.there (.there (.there .here)))))))))) hd (fun _ => rfl) (fun _ _ => rfl)),
    (struct_member (F := (J.bomFields J.specVersion)) (toP := BOM.toP) (ofP := BOM.ofP) (.skip (.skip (.there (.there (.there (.there (.there (.there (.there (.there (.there .here))))))))))) hd (fun _ => rfl) (fun _ _ => rfl)),
    (struct_member (F := (J.bomFields J.specVersion)) (toP := BOM.toP) (ofP := BOM.ofP) (.skip (.skip (.there (.there (.there (.there (.there (.there (.there (.there (.there (.there .here)))))))))))) hd (fun _ => rfl) (fun _ _ => rfl)),
    (struct_member (F := (J.bomFields J.specVersion)) (toP := BOM.toP) (ofP := BOM.ofP) (.skip (.skip (.there (.there (.there (.there (.there (.there (.there (.there (.there (.there (.there .here))))))))))))) hd (fun _ => rfl) (fun _ _ => rfl)),
    (struct_member (F := (J.bomFields J.specVersion)) (toP := BOM.toP) (ofP := BOM.ofP) (.skip (.skip (.there (.there (.there (.there (.there (.there (.there (.there (.there (.there (.there (.there .here)))))))))))))) hd (fun _ => rfl) (fun _ _ => rfl)),
    (struct_member (F := (J.bomFields J.specVersion)) (toP := BOM.toP) (ofP := BOM.ofP) (.skip (.skip (.there (.there (.there (.there (.there (.there (.there (.there (.there (.there (.there (.there (.there .here))))))))))))))) hd (fun _ => rfl) (fun _ _ => rfl)),
    (struct_member (F := (J.bomFields J.specVersion)) (toP := BOM.toP) (ofP := BOM.ofP) (.skip (.skip (.there (.there (.there (.there (.there (.there (.there (.there (.there (.there (.there (.there (.there (.there .here)))))))))))))))) hd (fun _ => rfl) (fun _ _ => rfl)),
    (struct_member (F := (J.bomFields J.specVersion)) (toP := BOM.toP) (ofP := BOM.ofP) (.skip (.skip (.there (.there (.there (.there (.there (.there (.there (.there (.there (.there (.there (.there (.there (.there (.there .here))))))))))))))))) hd (fun _ => rfl) (fun _ _ => rfl)),
    (struct_member (F := (J.bomFields J.specVersion)) (toP := BOM.toP) (ofP := BOM.ofP) (.skip (.skip (.there (.there (.there (.there (.there (.there (.there (.there (.there (.there (.there (.there (.there (.there (.there (.there .here)))))))))))))))))) hd (fun _ => rfl) (fun _ _ => rfl)),
    (struct_member (F := (J.bomFields J.specVersion)) (toP := BOM.toP) (ofP := BOM.ofP) (.skip (.skip (.there (.there (.there (.there (.there (.there (.there (.there (.there (.there (.there (.there (.there (.there (.there (.there (.there .here))))))))))))))))))) hd (fun _ => rfl) (fun _ _ => rfl)),
    (struct_member (F := (J.bomFields J.specVersion)) (toP := BOM.toP) (ofP := BOM.ofP) (.skip (.skip (.there (.there (.there (.there (.there (.there (.there (.there (.there (.there (.there (.there (.there (.there (.there (.there (.there (.there .here)))))))))))))))))))) hd (fun _ => rfl) (fun _ _ => rfl))⟩

/-- A component with a package URL and no CPE: the members called `purl` and `cpe` of what is written. -/
example : ∃ ms, J.component.enc { type := "library", name := "a", packageURL := "pkg:a" } = some (.obj ms) ∧
    called "purl" ms = [("purl", .str "pkg:a")] ∧ called "cpe" ms = [] ∧ called "name" ms = [("name", .str "a")] :=
  ⟨_, rfl, rfl, rfl, rfl⟩

/-- A member is read into its field, whatever the other fields are. -/
example (c : Component) : J.component.dec (.obj [("purl", .str "pkg:b"), ("other", .null)]) c =
    some { c with packageURL := "pkg:b" } := by cases c; rfl

end Verif.Props
