import Verif.Xml.ElementLaws

/-!
# C63: every field has its attribute, element or text

GENERATED by `tools/gen_elements.py`; do not edit by hand.

For every type that is written as an element without methods of its own: the names of its attributes and elements, and which
field each of them is.
-/

namespace Verif.Props

set_option maxRecDepth 4000
set_option linter.unusedSectionVars false
set_option synthInstance.maxSize 4000
set_option synthInstance.maxHeartbeats 400000

variable [XFloatIO]

/-- cyclonedx.go:35-38 -/
theorem xml_elements_advisory :
    Element X.advisory [] ["title", "url"] (fun (x : Advisory) _ => x) ∧
    ElemField X.advisory (fun (x : Advisory) _ => x) (.plain "title" true X.string) (fun x => x.title)
      (fun (x : Advisory) v => { x with title := v }) ∧
    ElemField X.advisory (fun (x : Advisory) _ => x) (.plain "url" false X.string) (fun x => x.url)
      (fun (x : Advisory) v => { x with url := v }) := by
  have hN : XFields.Named X.advisoryFields := by
    have : XNames X.advisoryFields := by unfold X.advisoryFields; infer_instance
    exact this.named
  have ha : XFields.attrNames X.advisoryFields |>.Nodup := show ([] : List String).Nodup by decide +kernel
  have he : XFields.elemNames X.advisoryFields |>.Nodup := show (["title", "url"] : List String).Nodup by decide +kernel
  have ht : ∀ x s, (fun (x : Advisory) _ => x) x s = Advisory.ofP (XFields.setText X.advisoryFields s (Advisory.toP x)) := (fun _ _ => rfl)
  exact ⟨struct_element (F := X.advisoryFields) (toP := Advisory.toP) (ofP := Advisory.ofP) (fun _ => rfl) hN ht _ _ rfl rfl,
    struct_elem (F := X.advisoryFields) (toP := Advisory.toP) (ofP := Advisory.ofP) .here (fun _ => rfl) hN he ht (fun _ => rfl) (fun _ _ => rfl),
    struct_elem (F := X.advisoryFields) (toP := Advisory.toP) (ofP := Advisory.ofP) (.elem .here) (fun _ => rfl) hN he ht (fun _ => rfl) (fun _ _ => rfl)⟩

/-- cyclonedx.go:40-44 -/
theorem xml_elements_affectedVersions :
    Element X.affectedVersions [] ["version", "range", "status"] (fun (x : AffectedVersions) _ => x) ∧
    ElemField X.affectedVersions (fun (x : AffectedVersions) _ => x) (.plain "version" true X.string) (fun x => x.version)
      (fun (x : AffectedVersions) v => { x with version := v }) ∧
    ElemField X.affectedVersions (fun (x : AffectedVersions) _ => x) (.plain "range" true X.string) (fun x => x.range)
      (fun (x : AffectedVersions) v => { x with range := v }) ∧
    ElemField X.affectedVersions (fun (x : AffectedVersions) _ => x) (.plain "status" false X.string) (fun x => x.status)
      (fun (x : AffectedVersions) v => { x with status := v }) := by
  have hN : XFields.Named X.affectedVersionsFields := by
    have : XNames X.affectedVersionsFields := by unfold X.affectedVersionsFields; infer_instance
    exact this.named
  have ha : XFields.attrNames X.affectedVersionsFields |>.Nodup := show ([] : List String).Nodup by decide +kernel
  have he : XFields.elemNames X.affectedVersionsFields |>.Nodup := show (["version", "range", "status"] : List String).Nodup by decide +kernel
  have ht : ∀ x s, (fun (x : AffectedVersions) _ => x) x s = AffectedVersions.ofP (XFields.setText X.affectedVersionsFields s (AffectedVersions.toP x)) := (fun _ _ => rfl)
  exact ⟨struct_element (F := X.affectedVersionsFields) (toP := AffectedVersions.toP) (ofP := AffectedVersions.ofP) (fun _ => rfl) hN ht _ _ rfl rfl,
    struct_elem (F := X.affectedVersionsFields) (toP := AffectedVersions.toP) (ofP := AffectedVersions.ofP) .here (fun _ => rfl) hN he ht (fun _ => rfl) (fun _ _ => rfl),
    struct_elem (F := X.affectedVersionsFields) (toP := AffectedVersions.toP) (ofP := AffectedVersions.ofP) (.elem .here) (fun _ => rfl) hN he ht (fun _ => rfl) (fun _ _ => rfl),
    struct_elem (F := X.affectedVersionsFields) (toP := AffectedVersions.toP) (ofP := AffectedVersions.ofP) (.elem (.elem .here)) (fun _ => rfl) hN he ht (fun _ => rfl) (fun _ _ => rfl)⟩

/-- cyclonedx.go:46-49 -/
theorem xml_elements_affects :
    Element X.affects [] ["ref", "versions"] (fun (x : Affects) _ => x) ∧
    ElemField X.affects (fun (x : Affects) _ => x) (.plain "ref" false X.string) (fun x => x.ref)
      (fun (x : Affects) v => { x with ref := v }) ∧
    ElemField X.affects (fun (x : Affects) _ => x) (.nlist "versions" "version" true X.affectedVersions) (fun x => x.range)
      (fun (x : Affects) v => { x with range := v }) := by
  have hN : XFields.Named X.affectsFields := by
    have : XNames X.affectsFields := by unfold X.affectsFields; infer_instance
    exact this.named
  have ha : XFields.attrNames X.affectsFields |>.Nodup := show ([] : List String).Nodup by decide +kernel
  have he : XFields.elemNames X.affectsFields |>.Nodup := show (["ref", "versions"] : List String).Nodup by decide +kernel
  have ht : ∀ x s, (fun (x : Affects) _ => x) x s = Affects.ofP (XFields.setText X.affectsFields s (Affects.toP x)) := (fun _ _ => rfl)
  exact ⟨struct_element (F := X.affectsFields) (toP := Affects.toP) (ofP := Affects.ofP) (fun _ => rfl) hN ht _ _ rfl rfl,
    struct_elem (F := X.affectsFields) (toP := Affects.toP) (ofP := Affects.ofP) .here (fun _ => rfl) hN he ht (fun _ => rfl) (fun _ _ => rfl),
    struct_elem (F := X.affectsFields) (toP := Affects.toP) (ofP := Affects.ofP) (.elem .here) (fun _ => rfl) hN he ht (fun _ => rfl) (fun _ _ => rfl)⟩

/-- cyclonedx.go:73-77 -/
theorem xml_elements_attachedText :
    Element X.attachedText ["content-type", "encoding"] [] (fun (x : AttachedText) s => { x with content := s }) ∧
    TextField X.attachedText (fun x => x.content) ∧
    AttrField X.attachedText (fun (x : AttachedText) s => { x with content := s }) "content-type" false XText.string (fun x => x.contentType)
      (fun (x : AttachedText) v => { x with contentType := v }) ∧
    AttrField X.attachedText (fun (x : AttachedText) s => { x with content := s }) "encoding" false XText.string (fun x => x.encoding)
      (fun (x : AttachedText) v => { x with encoding := v }) := by
  have hN : XFields.Named X.attachedTextFields := by
    have : XNames X.attachedTextFields := by unfold X.attachedTextFields; infer_instance
    exact this.named
  have ha : XFields.attrNames X.attachedTextFields |>.Nodup := show (["content-type", "encoding"] : List String).Nodup by decide +kernel
  have he : XFields.elemNames X.attachedTextFields |>.Nodup := show ([] : List String).Nodup by decide +kernel
  have ht : ∀ x s, (fun (x : AttachedText) s => { x with content := s }) x s = AttachedText.ofP (XFields.setText X.attachedTextFields s (AttachedText.toP x)) := (fun _ _ => rfl)
  exact ⟨struct_element (F := X.attachedTextFields) (toP := AttachedText.toP) (ofP := AttachedText.ofP) (fun _ => rfl) hN ht _ _ rfl rfl,
    struct_text (F := X.attachedTextFields) (toP := AttachedText.toP) (ofP := AttachedText.ofP) .here hN (show (1 : Nat) ≤ 1 by decide) (fun _ => rfl),
    struct_attr (F := X.attachedTextFields) (toP := AttachedText.toP) (ofP := AttachedText.ofP) (.chardata .here) (fun _ => rfl) ha ht (fun _ => rfl) (fun _ _ => rfl),
    struct_attr (F := X.attachedTextFields) (toP := AttachedText.toP) (ofP := AttachedText.ofP) (.chardata (.attr .here)) (fun _ => rfl) ha ht (fun _ => rfl) (fun _ _ => rfl)⟩

/-- cyclonedx.go:1277-1280 -/
theorem xml_elements_property :
    Element X.property ["name"] [] (fun (x : Property) s => { x with value := s }) ∧
    AttrField X.property (fun (x : Property) s => { x with value := s }) "name" true XText.string (fun x => x.name)
      (fun (x : Property) v => { x with name := v }) ∧
    TextField X.property (fun x => x.value) := by
  have hN : XFields.Named X.propertyFields := by
    have : XNames X.propertyFields := by unfold X.propertyFields; infer_instance
    exact this.named
  have ha : XFields.attrNames X.propertyFields |>.Nodup := show (["name"] : List String).Nodup by decide +kernel
  have he : XFields.elemNames X.propertyFields |>.Nodup := show ([] : List String).Nodup by decide +kernel
  have ht : ∀ x s, (fun (x : Property) s => { x with value := s }) x s = Property.ofP (XFields.setText X.propertyFields s (Property.toP x)) := (fun _ _ => rfl)
  exact ⟨struct_element (F := X.propertyFields) (toP := Property.toP) (ofP := Property.ofP) (fun _ => rfl) hN ht _ _ rfl rfl,
    struct_attr (F := X.propertyFields) (toP := Property.toP) (ofP := Property.ofP) .here (fun _ => rfl) ha ht (fun _ => rfl) (fun _ _ => rfl),
    struct_text (F := X.propertyFields) (toP := Property.toP) (ofP := Property.ofP) (.attr .here) hN (show (1 : Nat) ≤ 1 by decide) (fun _ => rfl)⟩

/-- cyclonedx.go:290-294 -/
theorem xml_elements_componentDataContents :
    Element X.componentDataContents [] ["attachment", "url", "properties"] (fun (x : ComponentDataContents) _ => x) ∧
    ElemField X.componentDataContents (fun (x : ComponentDataContents) _ => x) (.ptr "attachment" X.attachedText) (fun x => x.attachment)
      (fun (x : ComponentDataContents) v => { x with attachment := v }) ∧
    ElemField X.componentDataContents (fun (x : ComponentDataContents) _ => x) (.plain "url" true X.string) (fun x => x.url)
      (fun (x : ComponentDataContents) v => { x with url := v }) ∧
    ElemField X.componentDataContents (fun (x : ComponentDataContents) _ => x) (.list "properties" true X.property) (fun x => x.properties)
      (fun (x : ComponentDataContents) v => { x with properties := v }) := by
  have hN : XFields.Named X.componentDataContentsFields := by
    have : XNames X.componentDataContentsFields := by unfold X.componentDataContentsFields; infer_instance
    exact this.named
  have ha : XFields.attrNames X.componentDataContentsFields |>.Nodup := show ([] : List String).Nodup by decide +kernel
  have he : XFields.elemNames X.componentDataContentsFields |>.Nodup := show (["attachment", "url", "properties"] : List String).Nodup by decide +kernel
  have ht : ∀ x s, (fun (x : ComponentDataContents) _ => x) x s = ComponentDataContents.ofP (XFields.setText X.componentDataContentsFields s (ComponentDataContents.toP x)) := (fun _ _ => rfl)
  exact ⟨struct_element (F := X.componentDataContentsFields) (toP := ComponentDataContents.toP) (ofP := ComponentDataContents.ofP) (fun _ => rfl) hN ht _ _ rfl rfl,
    struct_elem (F := X.componentDataContentsFields) (toP := ComponentDataContents.toP) (ofP := ComponentDataContents.ofP) .here (fun _ => rfl) hN he ht (fun _ => rfl) (fun _ _ => rfl),
    struct_elem (F := X.componentDataContentsFields) (toP := ComponentDataContents.toP) (ofP := ComponentDataContents.ofP) (.elem .here) (fun _ => rfl) hN he ht (fun _ => rfl) (fun _ _ => rfl),
    struct_elem (F := X.componentDataContentsFields) (toP := ComponentDataContents.toP) (ofP := ComponentDataContents.ofP) (.elem (.elem .here)) (fun _ => rfl) hN he ht (fun _ => rfl) (fun _ _ => rfl)⟩

/-- cyclonedx.go:301-304 -/
theorem xml_elements_componentDataGraphic :
    Element X.componentDataGraphic [] ["name", "image"] (fun (x : ComponentDataGraphic) _ => x) ∧
    ElemField X.componentDataGraphic (fun (x : ComponentDataGraphic) _ => x) (.plain "name" true X.string) (fun x => x.name)
      (fun (x : ComponentDataGraphic) v => { x with name := v }) ∧
    ElemField X.componentDataGraphic (fun (x : ComponentDataGraphic) _ => x) (.ptr "image" X.attachedText) (fun x => x.image)
      (fun (x : ComponentDataGraphic) v => { x with image := v }) := by
  have hN : XFields.Named X.componentDataGraphicFields := by
    have : XNames X.componentDataGraphicFields := by unfold X.componentDataGraphicFields; infer_instance
    exact this.named
  have ha : XFields.attrNames X.componentDataGraphicFields |>.Nodup := show ([] : List String).Nodup by decide +kernel
  have he : XFields.elemNames X.componentDataGraphicFields |>.Nodup := show (["name", "image"] : List String).Nodup by decide +kernel
  have ht : ∀ x s, (fun (x : ComponentDataGraphic) _ => x) x s = ComponentDataGraphic.ofP (XFields.setText X.componentDataGraphicFields s (ComponentDataGraphic.toP x)) := (fun _ _ => rfl)
  exact ⟨struct_element (F := X.componentDataGraphicFields) (toP := ComponentDataGraphic.toP) (ofP := ComponentDataGraphic.ofP) (fun _ => rfl) hN ht _ _ rfl rfl,
    struct_elem (F := X.componentDataGraphicFields) (toP := ComponentDataGraphic.toP) (ofP := ComponentDataGraphic.ofP) .here (fun _ => rfl) hN he ht (fun _ => rfl) (fun _ _ => rfl),
    struct_elem (F := X.componentDataGraphicFields) (toP := ComponentDataGraphic.toP) (ofP := ComponentDataGraphic.ofP) (.elem .here) (fun _ => rfl) hN he ht (fun _ => rfl) (fun _ _ => rfl)⟩

/-- cyclonedx.go:306-309 -/
theorem xml_elements_componentDataGraphics :
    Element X.componentDataGraphics [] ["description", "collection"] (fun (x : ComponentDataGraphics) _ => x) ∧
    ElemField X.componentDataGraphics (fun (x : ComponentDataGraphics) _ => x) (.plain "description" true X.string) (fun x => x.description)
      (fun (x : ComponentDataGraphics) v => { x with description := v }) ∧
    ElemField X.componentDataGraphics (fun (x : ComponentDataGraphics) _ => x) (.nlist "collection" "graphic" true X.componentDataGraphic) (fun x => x.collection)
      (fun (x : ComponentDataGraphics) v => { x with collection := v }) := by
  have hN : XFields.Named X.componentDataGraphicsFields := by
    have : XNames X.componentDataGraphicsFields := by unfold X.componentDataGraphicsFields; infer_instance
    exact this.named
  have ha : XFields.attrNames X.componentDataGraphicsFields |>.Nodup := show ([] : List String).Nodup by decide +kernel
  have he : XFields.elemNames X.componentDataGraphicsFields |>.Nodup := show (["description", "collection"] : List String).Nodup by decide +kernel
  have ht : ∀ x s, (fun (x : ComponentDataGraphics) _ => x) x s = ComponentDataGraphics.ofP (XFields.setText X.componentDataGraphicsFields s (ComponentDataGraphics.toP x)) := (fun _ _ => rfl)
  exact ⟨struct_element (F := X.componentDataGraphicsFields) (toP := ComponentDataGraphics.toP) (ofP := ComponentDataGraphics.ofP) (fun _ => rfl) hN ht _ _ rfl rfl,
    struct_elem (F := X.componentDataGraphicsFields) (toP := ComponentDataGraphics.toP) (ofP := ComponentDataGraphics.ofP) .here (fun _ => rfl) hN he ht (fun _ => rfl) (fun _ _ => rfl),
    struct_elem (F := X.componentDataGraphicsFields) (toP := ComponentDataGraphics.toP) (ofP := ComponentDataGraphics.ofP) (.elem .here) (fun _ => rfl) hN he ht (fun _ => rfl) (fun _ _ => rfl)⟩

/-- cyclonedx.go:1211-1216 -/
theorem xml_elements_organizationalContact :
    Element X.organizationalContact ["bom-ref"] ["name", "email", "phone"] (fun (x : OrganizationalContact) _ => x) ∧
    AttrField X.organizationalContact (fun (x : OrganizationalContact) _ => x) "bom-ref" false XText.string (fun x => x.bomRef)
      (fun (x : OrganizationalContact) v => { x with bomRef := v }) ∧
    ElemField X.organizationalContact (fun (x : OrganizationalContact) _ => x) (.plain "name" true X.string) (fun x => x.name)
      (fun (x : OrganizationalContact) v => { x with name := v }) ∧
    ElemField X.organizationalContact (fun (x : OrganizationalContact) _ => x) (.plain "email" true X.string) (fun x => x.email)
      (fun (x : OrganizationalContact) v => { x with email := v }) ∧
    ElemField X.organizationalContact (fun (x : OrganizationalContact) _ => x) (.plain "phone" true X.string) (fun x => x.phone)
      (fun (x : OrganizationalContact) v => { x with phone := v }) := by
  have hN : XFields.Named X.organizationalContactFields := by
    have : XNames X.organizationalContactFields := by unfold X.organizationalContactFields; infer_instance
    exact this.named
  have ha : XFields.attrNames X.organizationalContactFields |>.Nodup := show (["bom-ref"] : List String).Nodup by decide +kernel
  have he : XFields.elemNames X.organizationalContactFields |>.Nodup := show (["name", "email", "phone"] : List String).Nodup by decide +kernel
  have ht : ∀ x s, (fun (x : OrganizationalContact) _ => x) x s = OrganizationalContact.ofP (XFields.setText X.organizationalContactFields s (OrganizationalContact.toP x)) := (fun _ _ => rfl)
  exact ⟨struct_element (F := X.organizationalContactFields) (toP := OrganizationalContact.toP) (ofP := OrganizationalContact.ofP) (fun _ => rfl) hN ht _ _ rfl rfl,
    struct_attr (F := X.organizationalContactFields) (toP := OrganizationalContact.toP) (ofP := OrganizationalContact.ofP) .here (fun _ => rfl) ha ht (fun _ => rfl) (fun _ _ => rfl),
    struct_elem (F := X.organizationalContactFields) (toP := OrganizationalContact.toP) (ofP := OrganizationalContact.ofP) (.attr .here) (fun _ => rfl) hN he ht (fun _ => rfl) (fun _ _ => rfl),
    struct_elem (F := X.organizationalContactFields) (toP := OrganizationalContact.toP) (ofP := OrganizationalContact.ofP) (.attr (.elem .here)) (fun _ => rfl) hN he ht (fun _ => rfl) (fun _ _ => rfl),
    struct_elem (F := X.organizationalContactFields) (toP := OrganizationalContact.toP) (ofP := OrganizationalContact.ofP) (.attr (.elem (.elem .here))) (fun _ => rfl) hN he ht (fun _ => rfl) (fun _ _ => rfl)⟩

/-- cyclonedx.go:1261-1269 -/
theorem xml_elements_postalAddress :
    Element X.postalAddress ["bom-ref"] ["country", "region", "locality", "postOfficeBoxNumber", "postalCode", "streetAddress"] (fun (x : PostalAddress) _ => x) ∧
    AttrField X.postalAddress (fun (x : PostalAddress) _ => x) "bom-ref" false XText.string (fun x => x.bomRef)
      (fun (x : PostalAddress) v => { x with bomRef := v }) ∧
    ElemField X.postalAddress (fun (x : PostalAddress) _ => x) (.plain "country" true X.string) (fun x => x.country)
      (fun (x : PostalAddress) v => { x with country := v }) ∧
    ElemField X.postalAddress (fun (x : PostalAddress) _ => x) (.plain "region" true X.string) (fun x => x.region)
      (fun (x : PostalAddress) v => { x with region := v }) ∧
    ElemField X.postalAddress (fun (x : PostalAddress) _ => x) (.plain "locality" true X.string) (fun x => x.locality)
      (fun (x : PostalAddress) v => { x with locality := v }) ∧
    ElemField X.postalAddress (fun (x : PostalAddress) _ => x) (.plain "postOfficeBoxNumber" true X.string) (fun x => x.postOfficeBoxNumber)
      (fun (x : PostalAddress) v => { x with postOfficeBoxNumber := v }) ∧
    ElemField X.postalAddress (fun (x : PostalAddress) _ => x) (.plain "postalCode" true X.string) (fun x => x.postalCode)
      (fun (x : PostalAddress) v => { x with postalCode := v }) ∧
    ElemField X.postalAddress (fun (x : PostalAddress) _ => x) (.plain "streetAddress" true X.string) (fun x => x.streetAddress)
      (fun (x : PostalAddress) v => { x with streetAddress := v }) := by
  have hN : XFields.Named X.postalAddressFields := by
    have : XNames X.postalAddressFields := by unfold X.postalAddressFields; infer_instance
    exact this.named
  have ha : XFields.attrNames X.postalAddressFields |>.Nodup := show (["bom-ref"] : List String).Nodup by decide +kernel
  have he : XFields.elemNames X.postalAddressFields |>.Nodup := show (["country", "region", "locality", "postOfficeBoxNumber", "postalCode", "streetAddress"] : List String).Nodup by decide +kernel
  have ht : ∀ x s, (fun (x : PostalAddress) _ => x) x s = PostalAddress.ofP (XFields.setText X.postalAddressFields s (PostalAddress.toP x)) := (fun _ _ => rfl)
  exact ⟨struct_element (F := X.postalAddressFields) (toP := PostalAddress.toP) (ofP := PostalAddress.ofP) (fun _ => rfl) hN ht _ _ rfl rfl,
    struct_attr (F := X.postalAddressFields) (toP := PostalAddress.toP) (ofP := PostalAddress.ofP) .here (fun _ => rfl) ha ht (fun _ => rfl) (fun _ _ => rfl),
    struct_elem (F := X.postalAddressFields) (toP := PostalAddress.toP) (ofP := PostalAddress.ofP) (.attr .here) (fun _ => rfl) hN he ht (fun _ => rfl) (fun _ _ => rfl),
    struct_elem (F := X.postalAddressFields) (toP := PostalAddress.toP) (ofP := PostalAddress.ofP) (.attr (.elem .here)) (fun _ => rfl) hN he ht (fun _ => rfl) (fun _ _ => rfl),
    struct_elem (F := X.postalAddressFields) (toP := PostalAddress.toP) (ofP := PostalAddress.ofP) (.attr (.elem (.elem .here))) (fun _ => rfl) hN he ht (fun _ => rfl) (fun _ _ => rfl),
    struct_elem (F := X.postalAddressFields) (toP := PostalAddress.toP) (ofP := PostalAddress.ofP) (.attr (.elem (.elem (.elem .here)))) (fun _ => rfl) hN he ht (fun _ => rfl) (fun _ _ => rfl),
    struct_elem (F := X.postalAddressFields) (toP := PostalAddress.toP) (ofP := PostalAddress.ofP) (.attr (.elem (.elem (.elem (.elem .here))))) (fun _ => rfl) hN he ht (fun _ => rfl) (fun _ _ => rfl),
    struct_elem (F := X.postalAddressFields) (toP := PostalAddress.toP) (ofP := PostalAddress.ofP) (.attr (.elem (.elem (.elem (.elem (.elem .here)))))) (fun _ => rfl) hN he ht (fun _ => rfl) (fun _ _ => rfl)⟩

/-- cyclonedx.go:1218-1224 -/
theorem xml_elements_organizationalEntity :
    Element X.organizationalEntity ["bom-ref"] ["name", "address", "url", "contact"] (fun (x : OrganizationalEntity) _ => x) ∧
    AttrField X.organizationalEntity (fun (x : OrganizationalEntity) _ => x) "bom-ref" false XText.string (fun x => x.bomRef)
      (fun (x : OrganizationalEntity) v => { x with bomRef := v }) ∧
    ElemField X.organizationalEntity (fun (x : OrganizationalEntity) _ => x) (.plain "name" false X.string) (fun x => x.name)
      (fun (x : OrganizationalEntity) v => { x with name := v }) ∧
    ElemField X.organizationalEntity (fun (x : OrganizationalEntity) _ => x) (.ptr "address" X.postalAddress) (fun x => x.address)
      (fun (x : OrganizationalEntity) v => { x with address := v }) ∧
    ElemField X.organizationalEntity (fun (x : OrganizationalEntity) _ => x) (.list "url" true X.string) (fun x => x.url)
      (fun (x : OrganizationalEntity) v => { x with url := v }) ∧
    ElemField X.organizationalEntity (fun (x : OrganizationalEntity) _ => x) (.list "contact" true X.organizationalContact) (fun x => x.contact)
      (fun (x : OrganizationalEntity) v => { x with contact := v }) := by
  have hN : XFields.Named X.organizationalEntityFields := by
    have : XNames X.organizationalEntityFields := by unfold X.organizationalEntityFields; infer_instance
    exact this.named
  have ha : XFields.attrNames X.organizationalEntityFields |>.Nodup := show (["bom-ref"] : List String).Nodup by decide +kernel
  have he : XFields.elemNames X.organizationalEntityFields |>.Nodup := show (["name", "address", "url", "contact"] : List String).Nodup by decide +kernel
  have ht : ∀ x s, (fun (x : OrganizationalEntity) _ => x) x s = OrganizationalEntity.ofP (XFields.setText X.organizationalEntityFields s (OrganizationalEntity.toP x)) := (fun _ _ => rfl)
  exact ⟨struct_element (F := X.organizationalEntityFields) (toP := OrganizationalEntity.toP) (ofP := OrganizationalEntity.ofP) (fun _ => rfl) hN ht _ _ rfl rfl,
    struct_attr (F := X.organizationalEntityFields) (toP := OrganizationalEntity.toP) (ofP := OrganizationalEntity.ofP) .here (fun _ => rfl) ha ht (fun _ => rfl) (fun _ _ => rfl),
    struct_elem (F := X.organizationalEntityFields) (toP := OrganizationalEntity.toP) (ofP := OrganizationalEntity.ofP) (.attr .here) (fun _ => rfl) hN he ht (fun _ => rfl) (fun _ _ => rfl),
    struct_elem (F := X.organizationalEntityFields) (toP := OrganizationalEntity.toP) (ofP := OrganizationalEntity.ofP) (.attr (.elem .here)) (fun _ => rfl) hN he ht (fun _ => rfl) (fun _ _ => rfl),
    struct_elem (F := X.organizationalEntityFields) (toP := OrganizationalEntity.toP) (ofP := OrganizationalEntity.ofP) (.attr (.elem (.elem .here))) (fun _ => rfl) hN he ht (fun _ => rfl) (fun _ _ => rfl),
    struct_elem (F := X.organizationalEntityFields) (toP := OrganizationalEntity.toP) (ofP := OrganizationalEntity.ofP) (.attr (.elem (.elem (.elem .here)))) (fun _ => rfl) hN he ht (fun _ => rfl) (fun _ _ => rfl)⟩

/-- cyclonedx.go:296-299 -/
theorem xml_elements_componentDataGovernanceResponsibleParty :
    Element X.componentDataGovernanceResponsibleParty [] ["organization", "contact"] (fun (x : ComponentDataGovernanceResponsibleParty) _ => x) ∧
    ElemField X.componentDataGovernanceResponsibleParty (fun (x : ComponentDataGovernanceResponsibleParty) _ => x) (.ptr "organization" X.organizationalEntity) (fun x => x.organization)
      (fun (x : ComponentDataGovernanceResponsibleParty) v => { x with organization := v }) ∧
    ElemField X.componentDataGovernanceResponsibleParty (fun (x : ComponentDataGovernanceResponsibleParty) _ => x) (.ptr "contact" X.organizationalContact) (fun x => x.contact)
      (fun (x : ComponentDataGovernanceResponsibleParty) v => { x with contact := v }) := by
  have hN : XFields.Named X.componentDataGovernanceResponsiblePartyFields := by
    have : XNames X.componentDataGovernanceResponsiblePartyFields := by unfold X.componentDataGovernanceResponsiblePartyFields; infer_instance
    exact this.named
  have ha : XFields.attrNames X.componentDataGovernanceResponsiblePartyFields |>.Nodup := show ([] : List String).Nodup by decide +kernel
  have he : XFields.elemNames X.componentDataGovernanceResponsiblePartyFields |>.Nodup := show (["organization", "contact"] : List String).Nodup by decide +kernel
  have ht : ∀ x s, (fun (x : ComponentDataGovernanceResponsibleParty) _ => x) x s = ComponentDataGovernanceResponsibleParty.ofP (XFields.setText X.componentDataGovernanceResponsiblePartyFields s (ComponentDataGovernanceResponsibleParty.toP x)) := (fun _ _ => rfl)
  exact ⟨struct_element (F := X.componentDataGovernanceResponsiblePartyFields) (toP := ComponentDataGovernanceResponsibleParty.toP) (ofP := ComponentDataGovernanceResponsibleParty.ofP) (fun _ => rfl) hN ht _ _ rfl rfl,
    struct_elem (F := X.componentDataGovernanceResponsiblePartyFields) (toP := ComponentDataGovernanceResponsibleParty.toP) (ofP := ComponentDataGovernanceResponsibleParty.ofP) .here (fun _ => rfl) hN he ht (fun _ => rfl) (fun _ _ => rfl),
    struct_elem (F := X.componentDataGovernanceResponsiblePartyFields) (toP := ComponentDataGovernanceResponsibleParty.toP) (ofP := ComponentDataGovernanceResponsibleParty.ofP) (.elem .here) (fun _ => rfl) hN he ht (fun _ => rfl) (fun _ _ => rfl)⟩

/-- cyclonedx.go:570-574 -/
theorem xml_elements_dataGovernance :
    Element X.dataGovernance [] ["custodians", "stewards", "owners"] (fun (x : DataGovernance) _ => x) ∧
    ElemField X.dataGovernance (fun (x : DataGovernance) _ => x) (.nlist "custodians" "custodian" true X.componentDataGovernanceResponsibleParty) (fun x => x.custodians)
      (fun (x : DataGovernance) v => { x with custodians := v }) ∧
    ElemField X.dataGovernance (fun (x : DataGovernance) _ => x) (.nlist "stewards" "steward" true X.componentDataGovernanceResponsibleParty) (fun x => x.stewards)
      (fun (x : DataGovernance) v => { x with stewards := v }) ∧
    ElemField X.dataGovernance (fun (x : DataGovernance) _ => x) (.nlist "owners" "owner" true X.componentDataGovernanceResponsibleParty) (fun x => x.owners)
      (fun (x : DataGovernance) v => { x with owners := v }) := by
  have hN : XFields.Named X.dataGovernanceFields := by
    have : XNames X.dataGovernanceFields := by unfold X.dataGovernanceFields; infer_instance
    exact this.named
  have ha : XFields.attrNames X.dataGovernanceFields |>.Nodup := show ([] : List String).Nodup by decide +kernel
  have he : XFields.elemNames X.dataGovernanceFields |>.Nodup := show (["custodians", "stewards", "owners"] : List String).Nodup by decide +kernel
  have ht : ∀ x s, (fun (x : DataGovernance) _ => x) x s = DataGovernance.ofP (XFields.setText X.dataGovernanceFields s (DataGovernance.toP x)) := (fun _ _ => rfl)
  exact ⟨struct_element (F := X.dataGovernanceFields) (toP := DataGovernance.toP) (ofP := DataGovernance.ofP) (fun _ => rfl) hN ht _ _ rfl rfl,
    struct_elem (F := X.dataGovernanceFields) (toP := DataGovernance.toP) (ofP := DataGovernance.ofP) .here (fun _ => rfl) hN he ht (fun _ => rfl) (fun _ _ => rfl),
    struct_elem (F := X.dataGovernanceFields) (toP := DataGovernance.toP) (ofP := DataGovernance.ofP) (.elem .here) (fun _ => rfl) hN he ht (fun _ => rfl) (fun _ _ => rfl),
    struct_elem (F := X.dataGovernanceFields) (toP := DataGovernance.toP) (ofP := DataGovernance.ofP) (.elem (.elem .here)) (fun _ => rfl) hN he ht (fun _ => rfl) (fun _ _ => rfl)⟩

/-- cyclonedx.go:278-288 -/
theorem xml_elements_componentData :
    Element X.componentData ["bom-ref"] ["type", "name", "contents", "classification", "sensitiveData", "graphics", "description", "governance"] (fun (x : ComponentData) _ => x) ∧
    AttrField X.componentData (fun (x : ComponentData) _ => x) "bom-ref" false XText.string (fun x => x.bomRef)
      (fun (x : ComponentData) v => { x with bomRef := v }) ∧
    ElemField X.componentData (fun (x : ComponentData) _ => x) (.plain "type" true X.string) (fun x => x.type)
      (fun (x : ComponentData) v => { x with type := v }) ∧
    ElemField X.componentData (fun (x : ComponentData) _ => x) (.plain "name" true X.string) (fun x => x.name)
      (fun (x : ComponentData) v => { x with name := v }) ∧
    ElemField X.componentData (fun (x : ComponentData) _ => x) (.ptr "contents" X.componentDataContents) (fun x => x.contents)
      (fun (x : ComponentData) v => { x with contents := v }) ∧
    ElemField X.componentData (fun (x : ComponentData) _ => x) (.plain "classification" true X.string) (fun x => x.classification)
      (fun (x : ComponentData) v => { x with classification := v }) ∧
    ElemField X.componentData (fun (x : ComponentData) _ => x) (.list "sensitiveData" true X.string) (fun x => x.sensitiveData)
      (fun (x : ComponentData) v => { x with sensitiveData := v }) ∧
    ElemField X.componentData (fun (x : ComponentData) _ => x) (.ptr "graphics" X.componentDataGraphics) (fun x => x.graphics)
      (fun (x : ComponentData) v => { x with graphics := v }) ∧
    ElemField X.componentData (fun (x : ComponentData) _ => x) (.plain "description" true X.string) (fun x => x.description)
      (fun (x : ComponentData) v => { x with description := v }) ∧
    ElemField X.componentData (fun (x : ComponentData) _ => x) (.ptr "governance" X.dataGovernance) (fun x => x.governance)
      (fun (x : ComponentData) v => { x with governance := v }) := by
  have hN : XFields.Named X.componentDataFields := by
    have : XNames X.componentDataFields := by unfold X.componentDataFields; infer_instance
    exact this.named
  have ha : XFields.attrNames X.componentDataFields |>.Nodup := show (["bom-ref"] : List String).Nodup by decide +kernel
  have he : XFields.elemNames X.componentDataFields |>.Nodup := show (["type", "name", "contents", "classification", "sensitiveData", "graphics", "description", "governance"] : List String).Nodup by decide +kernel
  have ht : ∀ x s, (fun (x : ComponentData) _ => x) x s = ComponentData.ofP (XFields.setText X.componentDataFields s (ComponentData.toP x)) := (fun _ _ => rfl)
  exact ⟨struct_element (F := X.componentDataFields) (toP := ComponentData.toP) (ofP := ComponentData.ofP) (fun _ => rfl) hN ht _ _ rfl rfl,
    struct_attr (F := X.componentDataFields) (toP := ComponentData.toP) (ofP := ComponentData.ofP) .here (fun _ => rfl) ha ht (fun _ => rfl) (fun _ _ => rfl),
    struct_elem (F := X.componentDataFields) (toP := ComponentData.toP) (ofP := ComponentData.ofP) (.attr .here) (fun _ => rfl) hN he ht (fun _ => rfl) (fun _ _ => rfl),
    struct_elem (F := X.componentDataFields) (toP := ComponentData.toP) (ofP := ComponentData.ofP) (.attr (.elem .here)) (fun _ => rfl) hN he ht (fun _ => rfl) (fun _ _ => rfl),
    struct_elem (F := X.componentDataFields) (toP := ComponentData.toP) (ofP := ComponentData.ofP) (.attr (.elem (.elem .here))) (fun _ => rfl) hN he ht (fun _ => rfl) (fun _ _ => rfl),
    struct_elem (F := X.componentDataFields) (toP := ComponentData.toP) (ofP := ComponentData.ofP) (.attr (.elem (.elem (.elem .here)))) (fun _ => rfl) hN he ht (fun _ => rfl) (fun _ _ => rfl),
    struct_elem (F := X.componentDataFields) (toP := ComponentData.toP) (ofP := ComponentData.ofP) (.attr (.elem (.elem (.elem (.elem .here))))) (fun _ => rfl) hN he ht (fun _ => rfl) (fun _ _ => rfl),
    struct_elem (F := X.componentDataFields) (toP := ComponentData.toP) (ofP := ComponentData.ofP) (.attr (.elem (.elem (.elem (.elem (.elem .here)))))) (fun _ => rfl) hN he ht (fun _ => rfl) (fun _ _ => rfl),
    struct_elem (F := X.componentDataFields) (toP := ComponentData.toP) (ofP := ComponentData.ofP) (.attr (.elem (.elem (.elem (.elem (.elem (.elem .here))))))) (fun _ => rfl) hN he ht (fun _ => rfl) (fun _ _ => rfl),
    struct_elem (F := X.componentDataFields) (toP := ComponentData.toP) (ofP := ComponentData.ofP) (.attr (.elem (.elem (.elem (.elem (.elem (.elem (.elem .here)))))))) (fun _ => rfl) hN he ht (fun _ => rfl) (fun _ _ => rfl)⟩

/-- cyclonedx.go:808-811 -/
theorem xml_elements_hash :
    Element X.hash ["alg"] [] (fun (x : Hash) s => { x with value := s }) ∧
    AttrField X.hash (fun (x : Hash) s => { x with value := s }) "alg" true XText.string (fun x => x.algorithm)
      (fun (x : Hash) v => { x with algorithm := v }) ∧
    TextField X.hash (fun x => x.value) := by
  have hN : XFields.Named X.hashFields := by
    have : XNames X.hashFields := by unfold X.hashFields; infer_instance
    exact this.named
  have ha : XFields.attrNames X.hashFields |>.Nodup := show (["alg"] : List String).Nodup by decide +kernel
  have he : XFields.elemNames X.hashFields |>.Nodup := show ([] : List String).Nodup by decide +kernel
  have ht : ∀ x s, (fun (x : Hash) s => { x with value := s }) x s = Hash.ofP (XFields.setText X.hashFields s (Hash.toP x)) := (fun _ _ => rfl)
  exact ⟨struct_element (F := X.hashFields) (toP := Hash.toP) (ofP := Hash.ofP) (fun _ => rfl) hN ht _ _ rfl rfl,
    struct_attr (F := X.hashFields) (toP := Hash.toP) (ofP := Hash.ofP) .here (fun _ => rfl) ha ht (fun _ => rfl) (fun _ _ => rfl),
    struct_text (F := X.hashFields) (toP := Hash.toP) (ofP := Hash.ofP) (.attr .here) hN (show (1 : Nat) ≤ 1 by decide) (fun _ => rfl)⟩

/-- cyclonedx.go:1866-1869 -/
theorem xml_elements_relatedCryptographicAsset :
    Element X.relatedCryptographicAsset [] ["type", "ref"] (fun (x : RelatedCryptographicAsset) _ => x) ∧
    ElemField X.relatedCryptographicAsset (fun (x : RelatedCryptographicAsset) _ => x) (.plain "type" true X.string) (fun x => x.type)
      (fun (x : RelatedCryptographicAsset) v => { x with type := v }) ∧
    ElemField X.relatedCryptographicAsset (fun (x : RelatedCryptographicAsset) _ => x) (.plain "ref" true X.string) (fun x => x.ref)
      (fun (x : RelatedCryptographicAsset) v => { x with ref := v }) := by
  have hN : XFields.Named X.relatedCryptographicAssetFields := by
    have : XNames X.relatedCryptographicAssetFields := by unfold X.relatedCryptographicAssetFields; infer_instance
    exact this.named
  have ha : XFields.attrNames X.relatedCryptographicAssetFields |>.Nodup := show ([] : List String).Nodup by decide +kernel
  have he : XFields.elemNames X.relatedCryptographicAssetFields |>.Nodup := show (["type", "ref"] : List String).Nodup by decide +kernel
  have ht : ∀ x s, (fun (x : RelatedCryptographicAsset) _ => x) x s = RelatedCryptographicAsset.ofP (XFields.setText X.relatedCryptographicAssetFields s (RelatedCryptographicAsset.toP x)) := (fun _ _ => rfl)
  exact ⟨struct_element (F := X.relatedCryptographicAssetFields) (toP := RelatedCryptographicAsset.toP) (ofP := RelatedCryptographicAsset.ofP) (fun _ => rfl) hN ht _ _ rfl rfl,
    struct_elem (F := X.relatedCryptographicAssetFields) (toP := RelatedCryptographicAsset.toP) (ofP := RelatedCryptographicAsset.ofP) .here (fun _ => rfl) hN he ht (fun _ => rfl) (fun _ _ => rfl),
    struct_elem (F := X.relatedCryptographicAssetFields) (toP := RelatedCryptographicAsset.toP) (ofP := RelatedCryptographicAsset.ofP) (.elem .here) (fun _ => rfl) hN he ht (fun _ => rfl) (fun _ _ => rfl)⟩

/-- cyclonedx.go:171-191 -/
theorem xml_elements_certificateProperties :
    Element X.certificateProperties [] ["serialNumber", "subjectName", "issuerName", "notValidBefore", "notValidAfter", "signatureAlgorithmRef", "subjectPublicKeyRef", "certificateFormat", "certificateExtension", "certificateFileExtension", "fingerprint", "certificateState", "certificateExtensions", "relatedCryptographicAssets", "creationDate", "activationDate", "deactivationDate", "revocationDate", "destructionDate"] (fun (x : CertificateProperties) _ => x) ∧
    ElemField X.certificateProperties (fun (x : CertificateProperties) _ => x) (.plain "serialNumber" true X.string) (fun x => x.serialNumber)
      (fun (x : CertificateProperties) v => { x with serialNumber := v }) ∧
    ElemField X.certificateProperties (fun (x : CertificateProperties) _ => x) (.plain "subjectName" true X.string) (fun x => x.subjectName)
      (fun (x : CertificateProperties) v => { x with subjectName := v }) ∧
    ElemField X.certificateProperties (fun (x : CertificateProperties) _ => x) (.plain "issuerName" true X.string) (fun x => x.issuerName)
      (fun (x : CertificateProperties) v => { x with issuerName := v }) ∧
    ElemField X.certificateProperties (fun (x : CertificateProperties) _ => x) (.plain "notValidBefore" true X.string) (fun x => x.notValidBefore)
      (fun (x : CertificateProperties) v => { x with notValidBefore := v }) ∧
    ElemField X.certificateProperties (fun (x : CertificateProperties) _ => x) (.plain "notValidAfter" true X.string) (fun x => x.notValidAfter)
      (fun (x : CertificateProperties) v => { x with notValidAfter := v }) ∧
    ElemField X.certificateProperties (fun (x : CertificateProperties) _ => x) (.plain "signatureAlgorithmRef" true X.bomReference) (fun x => x.signatureAlgorithmRef)
      (fun (x : CertificateProperties) v => { x with signatureAlgorithmRef := v }) ∧
    ElemField X.certificateProperties (fun (x : CertificateProperties) _ => x) (.plain "subjectPublicKeyRef" true X.bomReference) (fun x => x.subjectPublicKeyRef)
      (fun (x : CertificateProperties) v => { x with subjectPublicKeyRef := v }) ∧
    ElemField X.certificateProperties (fun (x : CertificateProperties) _ => x) (.plain "certificateFormat" true X.string) (fun x => x.certificateFormat)
      (fun (x : CertificateProperties) v => { x with certificateFormat := v }) ∧
    ElemField X.certificateProperties (fun (x : CertificateProperties) _ => x) (.plain "certificateExtension" true X.string) (fun x => x.certificateExtension)
      (fun (x : CertificateProperties) v => { x with certificateExtension := v }) ∧
    ElemField X.certificateProperties (fun (x : CertificateProperties) _ => x) (.plain "certificateFileExtension" true X.string) (fun x => x.certificateFileExtension)
      (fun (x : CertificateProperties) v => { x with certificateFileExtension := v }) ∧
    ElemField X.certificateProperties (fun (x : CertificateProperties) _ => x) (.ptr "fingerprint" X.hash) (fun x => x.fingerprint)
      (fun (x : CertificateProperties) v => { x with fingerprint := v }) ∧
    ElemField X.certificateProperties (fun (x : CertificateProperties) _ => x) (.list "certificateState" true X.certificateState) (fun x => x.certificateState)
      (fun (x : CertificateProperties) v => { x with certificateState := v }) ∧
    ElemField X.certificateProperties (fun (x : CertificateProperties) _ => x) (.nlist "certificateExtensions" "certificateExtension" true X.certificateExtension) (fun x => x.certificateExtensions)
      (fun (x : CertificateProperties) v => { x with certificateExtensions := v }) ∧
    ElemField X.certificateProperties (fun (x : CertificateProperties) _ => x) (.nlist "relatedCryptographicAssets" "relatedCryptographicAsset" true X.relatedCryptographicAsset) (fun x => x.relatedCryptographicAssets)
      (fun (x : CertificateProperties) v => { x with relatedCryptographicAssets := v }) ∧
    ElemField X.certificateProperties (fun (x : CertificateProperties) _ => x) (.plain "creationDate" true X.string) (fun x => x.creationDate)
      (fun (x : CertificateProperties) v => { x with creationDate := v }) ∧
    ElemField X.certificateProperties (fun (x : CertificateProperties) _ => x) (.plain "activationDate" true X.string) (fun x => x.activationDate)
      (fun (x : CertificateProperties) v => { x with activationDate := v }) ∧
    ElemField X.certificateProperties (fun (x : CertificateProperties) _ => x) (.plain "deactivationDate" true X.string) (fun x => x.deactivationDate)
      (fun (x : CertificateProperties) v => { x with deactivationDate := v }) ∧
    ElemField X.certificateProperties (fun (x : CertificateProperties) _ => x) (.plain "revocationDate" true X.string) (fun x => x.revocationDate)
      (fun (x : CertificateProperties) v => { x with revocationDate := v }) ∧
    ElemField X.certificateProperties (fun (x : CertificateProperties) _ => x) (.plain "destructionDate" true X.string) (fun x => x.destructionDate)
      (fun (x : CertificateProperties) v => { x with destructionDate := v }) := by
  have hN : XFields.Named X.certificatePropertiesFields := by
    have : XNames X.certificatePropertiesFields := by unfold X.certificatePropertiesFields; infer_instance
    exact this.named
  have ha : XFields.attrNames X.certificatePropertiesFields |>.Nodup := show ([] : List String).Nodup by decide +kernel
  have he : XFields.elemNames X.certificatePropertiesFields |>.Nodup := show (["serialNumber", "subjectName", "issuerName", "notValidBefore", "notValidAfter", "signatureAlgorithmRef", "subjectPublicKeyRef", "certificateFormat", "certificateExtension", "certificateFileExtension", "fingerprint", "certificateState", "certificateExtensions", "relatedCryptographicAssets", "creationDate", "activationDate", "deactivationDate", "revocationDate", "destructionDate"] : List String).Nodup by decide +kernel
  have ht : ∀ x s, (fun (x : CertificateProperties) _ => x) x s = CertificateProperties.ofP (XFields.setText X.certificatePropertiesFields s (CertificateProperties.toP x)) := (fun _ _ => rfl)
  exact ⟨struct_element (F := X.certificatePropertiesFields) (toP := CertificateProperties.toP) (ofP := CertificateProperties.ofP) (fun _ => rfl) hN ht _ _ rfl rfl,
    struct_elem (F := X.certificatePropertiesFields) (toP := CertificateProperties.toP) (ofP := CertificateProperties.ofP) .here (fun _ => rfl) hN he ht (fun _ => rfl) (fun _ _ => rfl),
    struct_elem (F := X.certificatePropertiesFields) (toP := CertificateProperties.toP) (ofP := CertificateProperties.ofP) (.elem .here) (fun _ => rfl) hN he ht (fun _ => rfl) (fun _ _ => rfl),
    struct_elem (F := X.certificatePropertiesFields) (toP := CertificateProperties.toP) (ofP := CertificateProperties.ofP) (.elem (.elem .here)) (fun _ => rfl) hN he ht (fun _ => rfl) (fun _ _ => rfl),
    struct_elem (F := X.certificatePropertiesFields) (toP := CertificateProperties.toP) (ofP := CertificateProperties.ofP) (.elem (.elem (.elem .here))) (fun _ => rfl) hN he ht (fun _ => rfl) (fun _ _ => rfl),
    struct_elem (F := X.certificatePropertiesFields) (toP := CertificateProperties.toP) (ofP := CertificateProperties.ofP) (.elem (.elem (.elem (.elem .here)))) (fun _ => rfl) hN he ht (fun _ => rfl) (fun _ _ => rfl),
    struct_elem (F := X.certificatePropertiesFields) (toP := CertificateProperties.toP) (ofP := CertificateProperties.ofP) (.elem (.elem (.elem (.elem (.elem .here))))) (fun _ => rfl) hN he ht (fun _ => rfl) (fun _ _ => rfl),
    struct_elem (F := X.certificatePropertiesFields) (toP := CertificateProperties.toP) (ofP := CertificateProperties.ofP) (.elem (.elem (.elem (.elem (.elem (.elem .here)))))) (fun _ => rfl) hN he ht (fun _ => rfl) (fun _ _ => rfl),
    struct_elem (F := X.certificatePropertiesFields) (toP := CertificateProperties.toP) (ofP := CertificateProperties.ofP) (.elem (.elem (.elem (.elem (.elem (.elem (.elem .here))))))) (fun _ => rfl) hN he ht (fun _ => rfl) (fun _ _ => rfl),
    struct_elem (F := X.certificatePropertiesFields) (toP := CertificateProperties.toP) (ofP := CertificateProperties.ofP) (.elem (.elem (.elem (.elem (.elem (.elem (.elem (.elem .here)))))))) (fun _ => rfl) hN he ht (fun _ => rfl) (fun _ _ => rfl),
    struct_elem (F := X.certificatePropertiesFields) (toP := CertificateProperties.toP) (ofP := CertificateProperties.ofP) (.elem (.elem (.elem (.elem (.elem (.elem (.elem (.elem (.elem .here))))))))) (fun _ => rfl) hN he ht (fun _ => rfl) (fun _ _ => rfl),
    struct_elem (F := X.certificatePropertiesFields) (toP := CertificateProperties.toP) (ofP := CertificateProperties.ofP) (.elem (.elem (.elem (.elem (.elem (.elem (.elem (.elem (.elem (.elem .here)))))))))) (fun _ => rfl) hN he ht (fun _ => rfl) (fun _ _ => rfl),
    struct_elem (F := X.certificatePropertiesFields) (toP := CertificateProperties.toP) (ofP := CertificateProperties.ofP) (.elem (.elem (.elem (.elem (.elem (.elem (.elem (.elem (.elem (.elem (.elem .here))))))))))) (fun _ => rfl) hN he ht (fun _ => rfl) (fun _ _ => rfl),
    struct_elem (F := X.certificatePropertiesFields) (toP := CertificateProperties.toP) (ofP := CertificateProperties.ofP) (.elem (.elem (.elem (.elem (.elem (.elem (.elem (.elem (.elem (.elem (.elem (.elem .here)))))))))))) (fun _ => rfl) hN he ht (fun _ => rfl) (fun _ _ => rfl),
    struct_elem (F := X.certificatePropertiesFields) (toP := CertificateProperties.toP) (ofP := CertificateProperties.ofP) (.elem (.elem (.elem (.elem (.elem (.elem (.elem (.elem (.elem (.elem (.elem (.elem (.elem .here))))))))))))) (fun _ => rfl) hN he ht (fun _ => rfl) (fun _ _ => rfl),
    struct_elem (F := X.certificatePropertiesFields) (toP := CertificateProperties.toP) (ofP := CertificateProperties.ofP) (.elem (.elem (.elem (.elem (.elem (.elem (.elem (.elem (.elem (.elem (.elem (.elem (.elem (.elem .here)))))))))))))) (fun _ => rfl) hN he ht (fun _ => rfl) (fun _ _ => rfl),
    struct_elem (F := X.certificatePropertiesFields) (toP := CertificateProperties.toP) (ofP := CertificateProperties.ofP) (.elem (.elem (.elem (.elem (.elem (.elem (.elem (.elem (.elem (.elem (.elem (.elem (.elem (.elem (.elem .here))))))))))))))) (fun _ => rfl) hN he ht (fun _ => rfl) (fun _ _ => rfl),
    struct_elem (F := X.certificatePropertiesFields) (toP := CertificateProperties.toP) (ofP := CertificateProperties.ofP) (.elem (.elem (.elem (.elem (.elem (.elem (.elem (.elem (.elem (.elem (.elem (.elem (.elem (.elem (.elem (.elem .here)))))))))))))))) (fun _ => rfl) hN he ht (fun _ => rfl) (fun _ _ => rfl),
    struct_elem (F := X.certificatePropertiesFields) (toP := CertificateProperties.toP) (ofP := CertificateProperties.ofP) (.elem (.elem (.elem (.elem (.elem (.elem (.elem (.elem (.elem (.elem (.elem (.elem (.elem (.elem (.elem (.elem (.elem .here))))))))))))))))) (fun _ => rfl) hN he ht (fun _ => rfl) (fun _ _ => rfl),
    struct_elem (F := X.certificatePropertiesFields) (toP := CertificateProperties.toP) (ofP := CertificateProperties.ofP) (.elem (.elem (.elem (.elem (.elem (.elem (.elem (.elem (.elem (.elem (.elem (.elem (.elem (.elem (.elem (.elem (.elem (.elem .here)))))))))))))))))) (fun _ => rfl) hN he ht (fun _ => rfl) (fun _ _ => rfl)⟩

/-- cyclonedx.go:368-382 -/
theorem xml_elements_cryptoAlgorithmProperties :
    Element X.cryptoAlgorithmProperties [] ["primitive", "parameterSetIdentifier", "algorithmFamily", "curve", "ellipticCurve", "executionEnvironment", "implementationPlatform", "certificationLevel", "mode", "padding", "cryptoFunctions", "classicalSecurityLevel", "nistQuantumSecurityLevel"] (fun (x : CryptoAlgorithmProperties) _ => x) ∧
    ElemField X.cryptoAlgorithmProperties (fun (x : CryptoAlgorithmProperties) _ => x) (.plain "primitive" true X.string) (fun x => x.primitive)
      (fun (x : CryptoAlgorithmProperties) v => { x with primitive := v }) ∧
    ElemField X.cryptoAlgorithmProperties (fun (x : CryptoAlgorithmProperties) _ => x) (.plain "parameterSetIdentifier" true X.string) (fun x => x.parameterSetIdentifier)
      (fun (x : CryptoAlgorithmProperties) v => { x with parameterSetIdentifier := v }) ∧
    ElemField X.cryptoAlgorithmProperties (fun (x : CryptoAlgorithmProperties) _ => x) (.plain "algorithmFamily" true X.string) (fun x => x.algorithmFamily)
      (fun (x : CryptoAlgorithmProperties) v => { x with algorithmFamily := v }) ∧
    ElemField X.cryptoAlgorithmProperties (fun (x : CryptoAlgorithmProperties) _ => x) (.plain "curve" true X.string) (fun x => x.curve)
      (fun (x : CryptoAlgorithmProperties) v => { x with curve := v }) ∧
    ElemField X.cryptoAlgorithmProperties (fun (x : CryptoAlgorithmProperties) _ => x) (.plain "ellipticCurve" true X.string) (fun x => x.ellipticCurve)
      (fun (x : CryptoAlgorithmProperties) v => { x with ellipticCurve := v }) ∧
    ElemField X.cryptoAlgorithmProperties (fun (x : CryptoAlgorithmProperties) _ => x) (.plain "executionEnvironment" true X.string) (fun x => x.executionEnvironment)
      (fun (x : CryptoAlgorithmProperties) v => { x with executionEnvironment := v }) ∧
    ElemField X.cryptoAlgorithmProperties (fun (x : CryptoAlgorithmProperties) _ => x) (.plain "implementationPlatform" true X.string) (fun x => x.implementationPlatform)
      (fun (x : CryptoAlgorithmProperties) v => { x with implementationPlatform := v }) ∧
    ElemField X.cryptoAlgorithmProperties (fun (x : CryptoAlgorithmProperties) _ => x) (.list "certificationLevel" true X.string) (fun x => x.certificationLevel)
      (fun (x : CryptoAlgorithmProperties) v => { x with certificationLevel := v }) ∧
    ElemField X.cryptoAlgorithmProperties (fun (x : CryptoAlgorithmProperties) _ => x) (.plain "mode" true X.string) (fun x => x.mode)
      (fun (x : CryptoAlgorithmProperties) v => { x with mode := v }) ∧
    ElemField X.cryptoAlgorithmProperties (fun (x : CryptoAlgorithmProperties) _ => x) (.plain "padding" true X.string) (fun x => x.padding)
      (fun (x : CryptoAlgorithmProperties) v => { x with padding := v }) ∧
    ElemField X.cryptoAlgorithmProperties (fun (x : CryptoAlgorithmProperties) _ => x) (.nlist "cryptoFunctions" "cryptoFunction" true X.string) (fun x => x.cryptoFunctions)
      (fun (x : CryptoAlgorithmProperties) v => { x with cryptoFunctions := v }) ∧
    ElemField X.cryptoAlgorithmProperties (fun (x : CryptoAlgorithmProperties) _ => x) (.ptr "classicalSecurityLevel" X.int) (fun x => x.classicalSecurityLevel)
      (fun (x : CryptoAlgorithmProperties) v => { x with classicalSecurityLevel := v }) ∧
    ElemField X.cryptoAlgorithmProperties (fun (x : CryptoAlgorithmProperties) _ => x) (.ptr "nistQuantumSecurityLevel" X.int) (fun x => x.nistQuantumSecurityLevel)
      (fun (x : CryptoAlgorithmProperties) v => { x with nistQuantumSecurityLevel := v }) := by
  have hN : XFields.Named X.cryptoAlgorithmPropertiesFields := by
    have : XNames X.cryptoAlgorithmPropertiesFields := by unfold X.cryptoAlgorithmPropertiesFields; infer_instance
    exact this.named
  have ha : XFields.attrNames X.cryptoAlgorithmPropertiesFields |>.Nodup := show ([] : List String).Nodup by decide +kernel
  have he : XFields.elemNames X.cryptoAlgorithmPropertiesFields |>.Nodup := show (["primitive", "parameterSetIdentifier", "algorithmFamily", "curve", "ellipticCurve", "executionEnvironment", "implementationPlatform", "certificationLevel", "mode", "padding", "cryptoFunctions", "classicalSecurityLevel", "nistQuantumSecurityLevel"] : List String).Nodup by decide +kernel
  have ht : ∀ x s, (fun (x : CryptoAlgorithmProperties) _ => x) x s = CryptoAlgorithmProperties.ofP (XFields.setText X.cryptoAlgorithmPropertiesFields s (CryptoAlgorithmProperties.toP x)) := (fun _ _ => rfl)
  exact ⟨struct_element (F := X.cryptoAlgorithmPropertiesFields) (toP := CryptoAlgorithmProperties.toP) (ofP := CryptoAlgorithmProperties.ofP) (fun _ => rfl) hN ht _ _ rfl rfl,
    struct_elem (F := X.cryptoAlgorithmPropertiesFields) (toP := CryptoAlgorithmProperties.toP) (ofP := CryptoAlgorithmProperties.ofP) .here (fun _ => rfl) hN he ht (fun _ => rfl) (fun _ _ => rfl),
    struct_elem (F := X.cryptoAlgorithmPropertiesFields) (toP := CryptoAlgorithmProperties.toP) (ofP := CryptoAlgorithmProperties.ofP) (.elem .here) (fun _ => rfl) hN he ht (fun _ => rfl) (fun _ _ => rfl),
    struct_elem (F := X.cryptoAlgorithmPropertiesFields) (toP := CryptoAlgorithmProperties.toP) (ofP := CryptoAlgorithmProperties.ofP) (.elem (.elem .here)) (fun _ => rfl) hN he ht (fun _ => rfl) (fun _ _ => rfl),
    struct_elem (F := X.cryptoAlgorithmPropertiesFields) (toP := CryptoAlgorithmProperties.toP) (ofP := CryptoAlgorithmProperties.ofP) (.elem (.elem (.elem .here))) (fun _ => rfl) hN he ht (fun _ => rfl) (fun _ _ => rfl),
    struct_elem (F := X.cryptoAlgorithmPropertiesFields) (toP := CryptoAlgorithmProperties.toP) (ofP := CryptoAlgorithmProperties.ofP) (.elem (.elem (.elem (.elem .here)))) (fun _ => rfl) hN he ht (fun _ => rfl) (fun _ _ => rfl),
    struct_elem (F := X.cryptoAlgorithmPropertiesFields) (toP := CryptoAlgorithmProperties.toP) (ofP := CryptoAlgorithmProperties.ofP) (.elem (.elem (.elem (.elem (.elem .here))))) (fun _ => rfl) hN he ht (fun _ => rfl) (fun _ _ => rfl),
    struct_elem (F := X.cryptoAlgorithmPropertiesFields) (toP := CryptoAlgorithmProperties.toP) (ofP := CryptoAlgorithmProperties.ofP) (.elem (.elem (.elem (.elem (.elem (.elem .here)))))) (fun _ => rfl) hN he ht (fun _ => rfl) (fun _ _ => rfl),
    struct_elem (F := X.cryptoAlgorithmPropertiesFields) (toP := CryptoAlgorithmProperties.toP) (ofP := CryptoAlgorithmProperties.ofP) (.elem (.elem (.elem (.elem (.elem (.elem (.elem .here))))))) (fun _ => rfl) hN he ht (fun _ => rfl) (fun _ _ => rfl),
    struct_elem (F := X.cryptoAlgorithmPropertiesFields) (toP := CryptoAlgorithmProperties.toP) (ofP := CryptoAlgorithmProperties.ofP) (.elem (.elem (.elem (.elem (.elem (.elem (.elem (.elem .here)))))))) (fun _ => rfl) hN he ht (fun _ => rfl) (fun _ _ => rfl),
    struct_elem (F := X.cryptoAlgorithmPropertiesFields) (toP := CryptoAlgorithmProperties.toP) (ofP := CryptoAlgorithmProperties.ofP) (.elem (.elem (.elem (.elem (.elem (.elem (.elem (.elem (.elem .here))))))))) (fun _ => rfl) hN he ht (fun _ => rfl) (fun _ _ => rfl),
    struct_elem (F := X.cryptoAlgorithmPropertiesFields) (toP := CryptoAlgorithmProperties.toP) (ofP := CryptoAlgorithmProperties.ofP) (.elem (.elem (.elem (.elem (.elem (.elem (.elem (.elem (.elem (.elem .here)))))))))) (fun _ => rfl) hN he ht (fun _ => rfl) (fun _ _ => rfl),
    struct_elem (F := X.cryptoAlgorithmPropertiesFields) (toP := CryptoAlgorithmProperties.toP) (ofP := CryptoAlgorithmProperties.ofP) (.elem (.elem (.elem (.elem (.elem (.elem (.elem (.elem (.elem (.elem (.elem .here))))))))))) (fun _ => rfl) hN he ht (fun _ => rfl) (fun _ _ => rfl),
    struct_elem (F := X.cryptoAlgorithmPropertiesFields) (toP := CryptoAlgorithmProperties.toP) (ofP := CryptoAlgorithmProperties.ofP) (.elem (.elem (.elem (.elem (.elem (.elem (.elem (.elem (.elem (.elem (.elem (.elem .here)))))))))))) (fun _ => rfl) hN he ht (fun _ => rfl) (fun _ _ => rfl)⟩

/-- cyclonedx.go:205-211 -/
theorem xml_elements_cipherSuite :
    Element X.cipherSuite [] ["name", "algorithms", "identifiers", "tlsGroups", "tlsSignatureSchemes"] (fun (x : CipherSuite) _ => x) ∧
    ElemField X.cipherSuite (fun (x : CipherSuite) _ => x) (.plain "name" true X.string) (fun x => x.name)
      (fun (x : CipherSuite) v => { x with name := v }) ∧
    ElemField X.cipherSuite (fun (x : CipherSuite) _ => x) (.list "algorithms" true X.bomReference) (fun x => x.algorithms)
      (fun (x : CipherSuite) v => { x with algorithms := v }) ∧
    ElemField X.cipherSuite (fun (x : CipherSuite) _ => x) (.list "identifiers" true X.string) (fun x => x.identifiers)
      (fun (x : CipherSuite) v => { x with identifiers := v }) ∧
    ElemField X.cipherSuite (fun (x : CipherSuite) _ => x) (.nlist "tlsGroups" "group" true X.string) (fun x => x.tlsGroups)
      (fun (x : CipherSuite) v => { x with tlsGroups := v }) ∧
    ElemField X.cipherSuite (fun (x : CipherSuite) _ => x) (.nlist "tlsSignatureSchemes" "signatureScheme" true X.string) (fun x => x.tlsSignatureSchemes)
      (fun (x : CipherSuite) v => { x with tlsSignatureSchemes := v }) := by
  have hN : XFields.Named X.cipherSuiteFields := by
    have : XNames X.cipherSuiteFields := by unfold X.cipherSuiteFields; infer_instance
    exact this.named
  have ha : XFields.attrNames X.cipherSuiteFields |>.Nodup := show ([] : List String).Nodup by decide +kernel
  have he : XFields.elemNames X.cipherSuiteFields |>.Nodup := show (["name", "algorithms", "identifiers", "tlsGroups", "tlsSignatureSchemes"] : List String).Nodup by decide +kernel
  have ht : ∀ x s, (fun (x : CipherSuite) _ => x) x s = CipherSuite.ofP (XFields.setText X.cipherSuiteFields s (CipherSuite.toP x)) := (fun _ _ => rfl)
  exact ⟨struct_element (F := X.cipherSuiteFields) (toP := CipherSuite.toP) (ofP := CipherSuite.ofP) (fun _ => rfl) hN ht _ _ rfl rfl,
    struct_elem (F := X.cipherSuiteFields) (toP := CipherSuite.toP) (ofP := CipherSuite.ofP) .here (fun _ => rfl) hN he ht (fun _ => rfl) (fun _ _ => rfl),
    struct_elem (F := X.cipherSuiteFields) (toP := CipherSuite.toP) (ofP := CipherSuite.ofP) (.elem .here) (fun _ => rfl) hN he ht (fun _ => rfl) (fun _ _ => rfl),
    struct_elem (F := X.cipherSuiteFields) (toP := CipherSuite.toP) (ofP := CipherSuite.ofP) (.elem (.elem .here)) (fun _ => rfl) hN he ht (fun _ => rfl) (fun _ _ => rfl),
    struct_elem (F := X.cipherSuiteFields) (toP := CipherSuite.toP) (ofP := CipherSuite.ofP) (.elem (.elem (.elem .here))) (fun _ => rfl) hN he ht (fun _ => rfl) (fun _ _ => rfl),
    struct_elem (F := X.cipherSuiteFields) (toP := CipherSuite.toP) (ofP := CipherSuite.ofP) (.elem (.elem (.elem (.elem .here)))) (fun _ => rfl) hN he ht (fun _ => rfl) (fun _ _ => rfl)⟩

/-- cyclonedx.go:1826-1830 (for a value without a reference) -/
theorem xml_elements_ikev2Auth :
    Element (XCodec.struct (XFields.skip (⟨""⟩ : BOMReference) X.ikev2AuthFields) IKEv2Auth.toP IKEv2Auth.ofP) [] ["name", "algorithm"] (fun (x : IKEv2Auth) _ => x) ∧
    ElemField (XCodec.struct (XFields.skip (⟨""⟩ : BOMReference) X.ikev2AuthFields) IKEv2Auth.toP IKEv2Auth.ofP) (fun (x : IKEv2Auth) _ => x) (.plain "name" true X.string) (fun x => x.name)
      (fun (x : IKEv2Auth) v => { x with name := v }) ∧
    ElemField (XCodec.struct (XFields.skip (⟨""⟩ : BOMReference) X.ikev2AuthFields) IKEv2Auth.toP IKEv2Auth.ofP) (fun (x : IKEv2Auth) _ => x) (.plain "algorithm" true X.string) (fun x => x.algorithm)
      (fun (x : IKEv2Auth) v => { x with algorithm := v }) := by
  have hN : XFields.Named (XFields.skip (⟨""⟩ : BOMReference) X.ikev2AuthFields) := by
    have : XNames (XFields.skip (⟨""⟩ : BOMReference) X.ikev2AuthFields) := by unfold X.ikev2AuthFields; infer_instance
    exact this.named
  have ha : XFields.attrNames (XFields.skip (⟨""⟩ : BOMReference) X.ikev2AuthFields) |>.Nodup := show ([] : List String).Nodup by decide +kernel
  have he : XFields.elemNames (XFields.skip (⟨""⟩ : BOMReference) X.ikev2AuthFields) |>.Nodup := show (["name", "algorithm"] : List String).Nodup by decide +kernel
  have ht : ∀ x s, (fun (x : IKEv2Auth) _ => x) x s = IKEv2Auth.ofP (XFields.setText (XFields.skip (⟨""⟩ : BOMReference) X.ikev2AuthFields) s (IKEv2Auth.toP x)) := (fun _ _ => rfl)
  exact ⟨struct_element (F := (XFields.skip (⟨""⟩ : BOMReference) X.ikev2AuthFields)) (toP := IKEv2Auth.toP) (ofP := IKEv2Auth.ofP) (fun _ => rfl) hN ht _ _ rfl rfl,
    struct_elem (F := (XFields.skip (⟨""⟩ : BOMReference) X.ikev2AuthFields)) (toP := IKEv2Auth.toP) (ofP := IKEv2Auth.ofP) (.skip .here) (fun _ => rfl) hN he ht (fun _ => rfl) (fun _ _ => rfl),
    struct_elem (F := (XFields.skip (⟨""⟩ : BOMReference) X.ikev2AuthFields)) (toP := IKEv2Auth.toP) (ofP := IKEv2Auth.ofP) (.skip (.elem .here)) (fun _ => rfl) hN he ht (fun _ => rfl) (fun _ _ => rfl)⟩

/-- cyclonedx.go:1834-1839 (for a value without a reference) -/
theorem xml_elements_ikev2Enc :
    Element (XCodec.struct (XFields.skip (⟨""⟩ : BOMReference) X.ikev2EncFields) IKEv2Enc.toP IKEv2Enc.ofP) [] ["name", "keyLength", "algorithm"] (fun (x : IKEv2Enc) _ => x) ∧
    ElemField (XCodec.struct (XFields.skip (⟨""⟩ : BOMReference) X.ikev2EncFields) IKEv2Enc.toP IKEv2Enc.ofP) (fun (x : IKEv2Enc) _ => x) (.plain "name" true X.string) (fun x => x.name)
      (fun (x : IKEv2Enc) v => { x with name := v }) ∧
    ElemField (XCodec.struct (XFields.skip (⟨""⟩ : BOMReference) X.ikev2EncFields) IKEv2Enc.toP IKEv2Enc.ofP) (fun (x : IKEv2Enc) _ => x) (.ptr "keyLength" X.int) (fun x => x.keyLength)
      (fun (x : IKEv2Enc) v => { x with keyLength := v }) ∧
    ElemField (XCodec.struct (XFields.skip (⟨""⟩ : BOMReference) X.ikev2EncFields) IKEv2Enc.toP IKEv2Enc.ofP) (fun (x : IKEv2Enc) _ => x) (.plain "algorithm" true X.string) (fun x => x.algorithm)
      (fun (x : IKEv2Enc) v => { x with algorithm := v }) := by
  have hN : XFields.Named (XFields.skip (⟨""⟩ : BOMReference) X.ikev2EncFields) := by
    have : XNames (XFields.skip (⟨""⟩ : BOMReference) X.ikev2EncFields) := by unfold X.ikev2EncFields; infer_instance
    exact this.named
  have ha : XFields.attrNames (XFields.skip (⟨""⟩ : BOMReference) X.ikev2EncFields) |>.Nodup := show ([] : List String).Nodup by decide +kernel
  have he : XFields.elemNames (XFields.skip (⟨""⟩ : BOMReference) X.ikev2EncFields) |>.Nodup := show (["name", "keyLength", "algorithm"] : List String).Nodup by decide +kernel
  have ht : ∀ x s, (fun (x : IKEv2Enc) _ => x) x s = IKEv2Enc.ofP (XFields.setText (XFields.skip (⟨""⟩ : BOMReference) X.ikev2EncFields) s (IKEv2Enc.toP x)) := (fun _ _ => rfl)
  exact ⟨struct_element (F := (XFields.skip (⟨""⟩ : BOMReference) X.ikev2EncFields)) (toP := IKEv2Enc.toP) (ofP := IKEv2Enc.ofP) (fun _ => rfl) hN ht _ _ rfl rfl,
    struct_elem (F := (XFields.skip (⟨""⟩ : BOMReference) X.ikev2EncFields)) (toP := IKEv2Enc.toP) (ofP := IKEv2Enc.ofP) (.skip .here) (fun _ => rfl) hN he ht (fun _ => rfl) (fun _ _ => rfl),
    struct_elem (F := (XFields.skip (⟨""⟩ : BOMReference) X.ikev2EncFields)) (toP := IKEv2Enc.toP) (ofP := IKEv2Enc.ofP) (.skip (.elem .here)) (fun _ => rfl) hN he ht (fun _ => rfl) (fun _ _ => rfl),
    struct_elem (F := (XFields.skip (⟨""⟩ : BOMReference) X.ikev2EncFields)) (toP := IKEv2Enc.toP) (ofP := IKEv2Enc.ofP) (.skip (.elem (.elem .here))) (fun _ => rfl) hN he ht (fun _ => rfl) (fun _ _ => rfl)⟩

/-- cyclonedx.go:1843-1847 (for a value without a reference) -/
theorem xml_elements_ikev2Integ :
    Element (XCodec.struct (XFields.skip (⟨""⟩ : BOMReference) X.ikev2IntegFields) IKEv2Integ.toP IKEv2Integ.ofP) [] ["name", "algorithm"] (fun (x : IKEv2Integ) _ => x) ∧
    ElemField (XCodec.struct (XFields.skip (⟨""⟩ : BOMReference) X.ikev2IntegFields) IKEv2Integ.toP IKEv2Integ.ofP) (fun (x : IKEv2Integ) _ => x) (.plain "name" true X.string) (fun x => x.name)
      (fun (x : IKEv2Integ) v => { x with name := v }) ∧
    ElemField (XCodec.struct (XFields.skip (⟨""⟩ : BOMReference) X.ikev2IntegFields) IKEv2Integ.toP IKEv2Integ.ofP) (fun (x : IKEv2Integ) _ => x) (.plain "algorithm" true X.string) (fun x => x.algorithm)
      (fun (x : IKEv2Integ) v => { x with algorithm := v }) := by
  have hN : XFields.Named (XFields.skip (⟨""⟩ : BOMReference) X.ikev2IntegFields) := by
    have : XNames (XFields.skip (⟨""⟩ : BOMReference) X.ikev2IntegFields) := by unfold X.ikev2IntegFields; infer_instance
    exact this.named
  have ha : XFields.attrNames (XFields.skip (⟨""⟩ : BOMReference) X.ikev2IntegFields) |>.Nodup := show ([] : List String).Nodup by decide +kernel
  have he : XFields.elemNames (XFields.skip (⟨""⟩ : BOMReference) X.ikev2IntegFields) |>.Nodup := show (["name", "algorithm"] : List String).Nodup by decide +kernel
  have ht : ∀ x s, (fun (x : IKEv2Integ) _ => x) x s = IKEv2Integ.ofP (XFields.setText (XFields.skip (⟨""⟩ : BOMReference) X.ikev2IntegFields) s (IKEv2Integ.toP x)) := (fun _ _ => rfl)
  exact ⟨struct_element (F := (XFields.skip (⟨""⟩ : BOMReference) X.ikev2IntegFields)) (toP := IKEv2Integ.toP) (ofP := IKEv2Integ.ofP) (fun _ => rfl) hN ht _ _ rfl rfl,
    struct_elem (F := (XFields.skip (⟨""⟩ : BOMReference) X.ikev2IntegFields)) (toP := IKEv2Integ.toP) (ofP := IKEv2Integ.ofP) (.skip .here) (fun _ => rfl) hN he ht (fun _ => rfl) (fun _ _ => rfl),
    struct_elem (F := (XFields.skip (⟨""⟩ : BOMReference) X.ikev2IntegFields)) (toP := IKEv2Integ.toP) (ofP := IKEv2Integ.ofP) (.skip (.elem .here)) (fun _ => rfl) hN he ht (fun _ => rfl) (fun _ _ => rfl)⟩

/-- cyclonedx.go:1851-1855 (for a value without a reference) -/
theorem xml_elements_ikev2Ke :
    Element (XCodec.struct (XFields.skip (⟨""⟩ : BOMReference) X.ikev2KeFields) IKEv2Ke.toP IKEv2Ke.ofP) [] ["group", "algorithm"] (fun (x : IKEv2Ke) _ => x) ∧
    ElemField (XCodec.struct (XFields.skip (⟨""⟩ : BOMReference) X.ikev2KeFields) IKEv2Ke.toP IKEv2Ke.ofP) (fun (x : IKEv2Ke) _ => x) (.ptr "group" X.int) (fun x => x.group)
      (fun (x : IKEv2Ke) v => { x with group := v }) ∧
    ElemField (XCodec.struct (XFields.skip (⟨""⟩ : BOMReference) X.ikev2KeFields) IKEv2Ke.toP IKEv2Ke.ofP) (fun (x : IKEv2Ke) _ => x) (.plain "algorithm" true X.string) (fun x => x.algorithm)
      (fun (x : IKEv2Ke) v => { x with algorithm := v }) := by
  have hN : XFields.Named (XFields.skip (⟨""⟩ : BOMReference) X.ikev2KeFields) := by
    have : XNames (XFields.skip (⟨""⟩ : BOMReference) X.ikev2KeFields) := by unfold X.ikev2KeFields; infer_instance
    exact this.named
  have ha : XFields.attrNames (XFields.skip (⟨""⟩ : BOMReference) X.ikev2KeFields) |>.Nodup := show ([] : List String).Nodup by decide +kernel
  have he : XFields.elemNames (XFields.skip (⟨""⟩ : BOMReference) X.ikev2KeFields) |>.Nodup := show (["group", "algorithm"] : List String).Nodup by decide +kernel
  have ht : ∀ x s, (fun (x : IKEv2Ke) _ => x) x s = IKEv2Ke.ofP (XFields.setText (XFields.skip (⟨""⟩ : BOMReference) X.ikev2KeFields) s (IKEv2Ke.toP x)) := (fun _ _ => rfl)
  exact ⟨struct_element (F := (XFields.skip (⟨""⟩ : BOMReference) X.ikev2KeFields)) (toP := IKEv2Ke.toP) (ofP := IKEv2Ke.ofP) (fun _ => rfl) hN ht _ _ rfl rfl,
    struct_elem (F := (XFields.skip (⟨""⟩ : BOMReference) X.ikev2KeFields)) (toP := IKEv2Ke.toP) (ofP := IKEv2Ke.ofP) (.skip .here) (fun _ => rfl) hN he ht (fun _ => rfl) (fun _ _ => rfl),
    struct_elem (F := (XFields.skip (⟨""⟩ : BOMReference) X.ikev2KeFields)) (toP := IKEv2Ke.toP) (ofP := IKEv2Ke.ofP) (.skip (.elem .here)) (fun _ => rfl) hN he ht (fun _ => rfl) (fun _ _ => rfl)⟩

/-- cyclonedx.go:1859-1863 (for a value without a reference) -/
theorem xml_elements_ikev2Prf :
    Element (XCodec.struct (XFields.skip (⟨""⟩ : BOMReference) X.ikev2PrfFields) IKEv2Prf.toP IKEv2Prf.ofP) [] ["name", "algorithm"] (fun (x : IKEv2Prf) _ => x) ∧
    ElemField (XCodec.struct (XFields.skip (⟨""⟩ : BOMReference) X.ikev2PrfFields) IKEv2Prf.toP IKEv2Prf.ofP) (fun (x : IKEv2Prf) _ => x) (.plain "name" true X.string) (fun x => x.name)
      (fun (x : IKEv2Prf) v => { x with name := v }) ∧
    ElemField (XCodec.struct (XFields.skip (⟨""⟩ : BOMReference) X.ikev2PrfFields) IKEv2Prf.toP IKEv2Prf.ofP) (fun (x : IKEv2Prf) _ => x) (.plain "algorithm" true X.string) (fun x => x.algorithm)
      (fun (x : IKEv2Prf) v => { x with algorithm := v }) := by
  have hN : XFields.Named (XFields.skip (⟨""⟩ : BOMReference) X.ikev2PrfFields) := by
    have : XNames (XFields.skip (⟨""⟩ : BOMReference) X.ikev2PrfFields) := by unfold X.ikev2PrfFields; infer_instance
    exact this.named
  have ha : XFields.attrNames (XFields.skip (⟨""⟩ : BOMReference) X.ikev2PrfFields) |>.Nodup := show ([] : List String).Nodup by decide +kernel
  have he : XFields.elemNames (XFields.skip (⟨""⟩ : BOMReference) X.ikev2PrfFields) |>.Nodup := show (["name", "algorithm"] : List String).Nodup by decide +kernel
  have ht : ∀ x s, (fun (x : IKEv2Prf) _ => x) x s = IKEv2Prf.ofP (XFields.setText (XFields.skip (⟨""⟩ : BOMReference) X.ikev2PrfFields) s (IKEv2Prf.toP x)) := (fun _ _ => rfl)
  exact ⟨struct_element (F := (XFields.skip (⟨""⟩ : BOMReference) X.ikev2PrfFields)) (toP := IKEv2Prf.toP) (ofP := IKEv2Prf.ofP) (fun _ => rfl) hN ht _ _ rfl rfl,
    struct_elem (F := (XFields.skip (⟨""⟩ : BOMReference) X.ikev2PrfFields)) (toP := IKEv2Prf.toP) (ofP := IKEv2Prf.ofP) (.skip .here) (fun _ => rfl) hN he ht (fun _ => rfl) (fun _ _ => rfl),
    struct_elem (F := (XFields.skip (⟨""⟩ : BOMReference) X.ikev2PrfFields)) (toP := IKEv2Prf.toP) (ofP := IKEv2Prf.ofP) (.skip (.elem .here)) (fun _ => rfl) hN he ht (fun _ => rfl) (fun _ _ => rfl)⟩

/-- cyclonedx.go:537-544 -/
theorem xml_elements_ikev2TransformTypes :
    Element X.ikev2TransformTypes [] ["encr", "prf", "integ", "ke", "esn", "auth"] (fun (x : IKEv2TransformTypes) _ => x) ∧
    ElemField X.ikev2TransformTypes (fun (x : IKEv2TransformTypes) _ => x) (.list "encr" true X.ikev2Enc) (fun x => x.encr)
      (fun (x : IKEv2TransformTypes) v => { x with encr := v }) ∧
    ElemField X.ikev2TransformTypes (fun (x : IKEv2TransformTypes) _ => x) (.list "prf" true X.ikev2Prf) (fun x => x.prf)
      (fun (x : IKEv2TransformTypes) v => { x with prf := v }) ∧
    ElemField X.ikev2TransformTypes (fun (x : IKEv2TransformTypes) _ => x) (.list "integ" true X.ikev2Integ) (fun x => x.integ)
      (fun (x : IKEv2TransformTypes) v => { x with integ := v }) ∧
    ElemField X.ikev2TransformTypes (fun (x : IKEv2TransformTypes) _ => x) (.list "ke" true X.ikev2Ke) (fun x => x.ke)
      (fun (x : IKEv2TransformTypes) v => { x with ke := v }) ∧
    ElemField X.ikev2TransformTypes (fun (x : IKEv2TransformTypes) _ => x) (.plain "esn" false X.bool) (fun x => x.esn)
      (fun (x : IKEv2TransformTypes) v => { x with esn := v }) ∧
    ElemField X.ikev2TransformTypes (fun (x : IKEv2TransformTypes) _ => x) (.list "auth" true X.ikev2Auth) (fun x => x.auth)
      (fun (x : IKEv2TransformTypes) v => { x with auth := v }) := by
  have hN : XFields.Named X.ikev2TransformTypesFields := by
    have : XNames X.ikev2TransformTypesFields := by unfold X.ikev2TransformTypesFields; infer_instance
    exact this.named
  have ha : XFields.attrNames X.ikev2TransformTypesFields |>.Nodup := show ([] : List String).Nodup by decide +kernel
  have he : XFields.elemNames X.ikev2TransformTypesFields |>.Nodup := show (["encr", "prf", "integ", "ke", "esn", "auth"] : List String).Nodup by decide +kernel
  have ht : ∀ x s, (fun (x : IKEv2TransformTypes) _ => x) x s = IKEv2TransformTypes.ofP (XFields.setText X.ikev2TransformTypesFields s (IKEv2TransformTypes.toP x)) := (fun _ _ => rfl)
  exact ⟨struct_element (F := X.ikev2TransformTypesFields) (toP := IKEv2TransformTypes.toP) (ofP := IKEv2TransformTypes.ofP) (fun _ => rfl) hN ht _ _ rfl rfl,
    struct_elem (F := X.ikev2TransformTypesFields) (toP := IKEv2TransformTypes.toP) (ofP := IKEv2TransformTypes.ofP) .here (fun _ => rfl) hN he ht (fun _ => rfl) (fun _ _ => rfl),
    struct_elem (F := X.ikev2TransformTypesFields) (toP := IKEv2TransformTypes.toP) (ofP := IKEv2TransformTypes.ofP) (.elem .here) (fun _ => rfl) hN he ht (fun _ => rfl) (fun _ _ => rfl),
    struct_elem (F := X.ikev2TransformTypesFields) (toP := IKEv2TransformTypes.toP) (ofP := IKEv2TransformTypes.ofP) (.elem (.elem .here)) (fun _ => rfl) hN he ht (fun _ => rfl) (fun _ _ => rfl),
    struct_elem (F := X.ikev2TransformTypesFields) (toP := IKEv2TransformTypes.toP) (ofP := IKEv2TransformTypes.ofP) (.elem (.elem (.elem .here))) (fun _ => rfl) hN he ht (fun _ => rfl) (fun _ _ => rfl),
    struct_elem (F := X.ikev2TransformTypesFields) (toP := IKEv2TransformTypes.toP) (ofP := IKEv2TransformTypes.ofP) (.elem (.elem (.elem (.elem .here)))) (fun _ => rfl) hN he ht (fun _ => rfl) (fun _ _ => rfl),
    struct_elem (F := X.ikev2TransformTypesFields) (toP := IKEv2TransformTypes.toP) (ofP := IKEv2TransformTypes.ofP) (.elem (.elem (.elem (.elem (.elem .here))))) (fun _ => rfl) hN he ht (fun _ => rfl) (fun _ _ => rfl)⟩

/-- cyclonedx.go:509-516 -/
theorem xml_elements_cryptoProtocolProperties :
    Element X.cryptoProtocolProperties [] ["type", "version", "cipherSuites", "ikev2TransformTypes", "cryptoRefArray", "relatedCryptographicAssets"] (fun (x : CryptoProtocolProperties) _ => x) ∧
    ElemField X.cryptoProtocolProperties (fun (x : CryptoProtocolProperties) _ => x) (.plain "type" true X.string) (fun x => x.type)
      (fun (x : CryptoProtocolProperties) v => { x with type := v }) ∧
    ElemField X.cryptoProtocolProperties (fun (x : CryptoProtocolProperties) _ => x) (.plain "version" true X.string) (fun x => x.version)
      (fun (x : CryptoProtocolProperties) v => { x with version := v }) ∧
    ElemField X.cryptoProtocolProperties (fun (x : CryptoProtocolProperties) _ => x) (.list "cipherSuites" true X.cipherSuite) (fun x => x.cipherSuites)
      (fun (x : CryptoProtocolProperties) v => { x with cipherSuites := v }) ∧
    ElemField X.cryptoProtocolProperties (fun (x : CryptoProtocolProperties) _ => x) (.ptr "ikev2TransformTypes" X.ikev2TransformTypes) (fun x => x.ikev2TransformTypes)
      (fun (x : CryptoProtocolProperties) v => { x with ikev2TransformTypes := v }) ∧
    ElemField X.cryptoProtocolProperties (fun (x : CryptoProtocolProperties) _ => x) (.list "cryptoRefArray" true X.bomReference) (fun x => x.cryptoRefArray)
      (fun (x : CryptoProtocolProperties) v => { x with cryptoRefArray := v }) ∧
    ElemField X.cryptoProtocolProperties (fun (x : CryptoProtocolProperties) _ => x) (.nlist "relatedCryptographicAssets" "relatedCryptographicAsset" true X.relatedCryptographicAsset) (fun x => x.relatedCryptographicAssets)
      (fun (x : CryptoProtocolProperties) v => { x with relatedCryptographicAssets := v }) := by
  have hN : XFields.Named X.cryptoProtocolPropertiesFields := by
    have : XNames X.cryptoProtocolPropertiesFields := by unfold X.cryptoProtocolPropertiesFields; infer_instance
    exact this.named
  have ha : XFields.attrNames X.cryptoProtocolPropertiesFields |>.Nodup := show ([] : List String).Nodup by decide +kernel
  have he : XFields.elemNames X.cryptoProtocolPropertiesFields |>.Nodup := show (["type", "version", "cipherSuites", "ikev2TransformTypes", "cryptoRefArray", "relatedCryptographicAssets"] : List String).Nodup by decide +kernel
  have ht : ∀ x s, (fun (x : CryptoProtocolProperties) _ => x) x s = CryptoProtocolProperties.ofP (XFields.setText X.cryptoProtocolPropertiesFields s (CryptoProtocolProperties.toP x)) := (fun _ _ => rfl)
  exact ⟨struct_element (F := X.cryptoProtocolPropertiesFields) (toP := CryptoProtocolProperties.toP) (ofP := CryptoProtocolProperties.ofP) (fun _ => rfl) hN ht _ _ rfl rfl,
    struct_elem (F := X.cryptoProtocolPropertiesFields) (toP := CryptoProtocolProperties.toP) (ofP := CryptoProtocolProperties.ofP) .here (fun _ => rfl) hN he ht (fun _ => rfl) (fun _ _ => rfl),
    struct_elem (F := X.cryptoProtocolPropertiesFields) (toP := CryptoProtocolProperties.toP) (ofP := CryptoProtocolProperties.ofP) (.elem .here) (fun _ => rfl) hN he ht (fun _ => rfl) (fun _ _ => rfl),
    struct_elem (F := X.cryptoProtocolPropertiesFields) (toP := CryptoProtocolProperties.toP) (ofP := CryptoProtocolProperties.ofP) (.elem (.elem .here)) (fun _ => rfl) hN he ht (fun _ => rfl) (fun _ _ => rfl),
    struct_elem (F := X.cryptoProtocolPropertiesFields) (toP := CryptoProtocolProperties.toP) (ofP := CryptoProtocolProperties.ofP) (.elem (.elem (.elem .here))) (fun _ => rfl) hN he ht (fun _ => rfl) (fun _ _ => rfl),
    struct_elem (F := X.cryptoProtocolPropertiesFields) (toP := CryptoProtocolProperties.toP) (ofP := CryptoProtocolProperties.ofP) (.elem (.elem (.elem (.elem .here)))) (fun _ => rfl) hN he ht (fun _ => rfl) (fun _ _ => rfl),
    struct_elem (F := X.cryptoProtocolPropertiesFields) (toP := CryptoProtocolProperties.toP) (ofP := CryptoProtocolProperties.ofP) (.elem (.elem (.elem (.elem (.elem .here))))) (fun _ => rfl) hN he ht (fun _ => rfl) (fun _ _ => rfl)⟩

/-- cyclonedx.go:546-549 -/
theorem xml_elements_securedBy :
    Element X.securedBy [] ["mechanism", "algorithmRef"] (fun (x : SecuredBy) _ => x) ∧
    ElemField X.securedBy (fun (x : SecuredBy) _ => x) (.plain "mechanism" true X.string) (fun x => x.mechanism)
      (fun (x : SecuredBy) v => { x with mechanism := v }) ∧
    ElemField X.securedBy (fun (x : SecuredBy) _ => x) (.plain "algorithmRef" true X.bomReference) (fun x => x.algorithmRef)
      (fun (x : SecuredBy) v => { x with algorithmRef := v }) := by
  have hN : XFields.Named X.securedByFields := by
    have : XNames X.securedByFields := by unfold X.securedByFields; infer_instance
    exact this.named
  have ha : XFields.attrNames X.securedByFields |>.Nodup := show ([] : List String).Nodup by decide +kernel
  have he : XFields.elemNames X.securedByFields |>.Nodup := show (["mechanism", "algorithmRef"] : List String).Nodup by decide +kernel
  have ht : ∀ x s, (fun (x : SecuredBy) _ => x) x s = SecuredBy.ofP (XFields.setText X.securedByFields s (SecuredBy.toP x)) := (fun _ _ => rfl)
  exact ⟨struct_element (F := X.securedByFields) (toP := SecuredBy.toP) (ofP := SecuredBy.ofP) (fun _ => rfl) hN ht _ _ rfl rfl,
    struct_elem (F := X.securedByFields) (toP := SecuredBy.toP) (ofP := SecuredBy.ofP) .here (fun _ => rfl) hN he ht (fun _ => rfl) (fun _ _ => rfl),
    struct_elem (F := X.securedByFields) (toP := SecuredBy.toP) (ofP := SecuredBy.ofP) (.elem .here) (fun _ => rfl) hN he ht (fun _ => rfl) (fun _ _ => rfl)⟩

/-- cyclonedx.go:1282-1297 -/
theorem xml_elements_relatedCryptoMaterialProperties :
    Element X.relatedCryptoMaterialProperties [] ["type", "id", "state", "algorithmRef", "creationDate", "activationDate", "updateDate", "expirationDate", "value", "size", "format", "securedBy", "fingerprint", "relatedCryptographicAssets"] (fun (x : RelatedCryptoMaterialProperties) _ => x) ∧
    ElemField X.relatedCryptoMaterialProperties (fun (x : RelatedCryptoMaterialProperties) _ => x) (.plain "type" true X.string) (fun x => x.type)
      (fun (x : RelatedCryptoMaterialProperties) v => { x with type := v }) ∧
    ElemField X.relatedCryptoMaterialProperties (fun (x : RelatedCryptoMaterialProperties) _ => x) (.plain "id" true X.string) (fun x => x.id)
      (fun (x : RelatedCryptoMaterialProperties) v => { x with id := v }) ∧
    ElemField X.relatedCryptoMaterialProperties (fun (x : RelatedCryptoMaterialProperties) _ => x) (.plain "state" true X.string) (fun x => x.state)
      (fun (x : RelatedCryptoMaterialProperties) v => { x with state := v }) ∧
    ElemField X.relatedCryptoMaterialProperties (fun (x : RelatedCryptoMaterialProperties) _ => x) (.plain "algorithmRef" true X.bomReference) (fun x => x.algorithmRef)
      (fun (x : RelatedCryptoMaterialProperties) v => { x with algorithmRef := v }) ∧
    ElemField X.relatedCryptoMaterialProperties (fun (x : RelatedCryptoMaterialProperties) _ => x) (.plain "creationDate" true X.string) (fun x => x.creationDate)
      (fun (x : RelatedCryptoMaterialProperties) v => { x with creationDate := v }) ∧
    ElemField X.relatedCryptoMaterialProperties (fun (x : RelatedCryptoMaterialProperties) _ => x) (.plain "activationDate" true X.string) (fun x => x.activationDate)
      (fun (x : RelatedCryptoMaterialProperties) v => { x with activationDate := v }) ∧
    ElemField X.relatedCryptoMaterialProperties (fun (x : RelatedCryptoMaterialProperties) _ => x) (.plain "updateDate" true X.string) (fun x => x.updateDate)
      (fun (x : RelatedCryptoMaterialProperties) v => { x with updateDate := v }) ∧
    ElemField X.relatedCryptoMaterialProperties (fun (x : RelatedCryptoMaterialProperties) _ => x) (.plain "expirationDate" true X.string) (fun x => x.expirationDate)
      (fun (x : RelatedCryptoMaterialProperties) v => { x with expirationDate := v }) ∧
    ElemField X.relatedCryptoMaterialProperties (fun (x : RelatedCryptoMaterialProperties) _ => x) (.plain "value" true X.string) (fun x => x.value)
      (fun (x : RelatedCryptoMaterialProperties) v => { x with value := v }) ∧
    ElemField X.relatedCryptoMaterialProperties (fun (x : RelatedCryptoMaterialProperties) _ => x) (.ptr "size" X.int) (fun x => x.size)
      (fun (x : RelatedCryptoMaterialProperties) v => { x with size := v }) ∧
    ElemField X.relatedCryptoMaterialProperties (fun (x : RelatedCryptoMaterialProperties) _ => x) (.plain "format" true X.string) (fun x => x.format)
      (fun (x : RelatedCryptoMaterialProperties) v => { x with format := v }) ∧
    ElemField X.relatedCryptoMaterialProperties (fun (x : RelatedCryptoMaterialProperties) _ => x) (.ptr "securedBy" X.securedBy) (fun x => x.securedBy)
      (fun (x : RelatedCryptoMaterialProperties) v => { x with securedBy := v }) ∧
    ElemField X.relatedCryptoMaterialProperties (fun (x : RelatedCryptoMaterialProperties) _ => x) (.ptr "fingerprint" X.hash) (fun x => x.fingerprint)
      (fun (x : RelatedCryptoMaterialProperties) v => { x with fingerprint := v }) ∧
    ElemField X.relatedCryptoMaterialProperties (fun (x : RelatedCryptoMaterialProperties) _ => x) (.nlist "relatedCryptographicAssets" "relatedCryptographicAsset" true X.relatedCryptographicAsset) (fun x => x.relatedCryptographicAssets)
      (fun (x : RelatedCryptoMaterialProperties) v => { x with relatedCryptographicAssets := v }) := by
  have hN : XFields.Named X.relatedCryptoMaterialPropertiesFields := by
    have : XNames X.relatedCryptoMaterialPropertiesFields := by unfold X.relatedCryptoMaterialPropertiesFields; infer_instance
    exact this.named
  have ha : XFields.attrNames X.relatedCryptoMaterialPropertiesFields |>.Nodup := show ([] : List String).Nodup by decide +kernel
  have he : XFields.elemNames X.relatedCryptoMaterialPropertiesFields |>.Nodup := show (["type", "id", "state", "algorithmRef", "creationDate", "activationDate", "updateDate", "expirationDate", "value", "size", "format", "securedBy", "fingerprint", "relatedCryptographicAssets"] : List String).Nodup by decide +kernel
  have ht : ∀ x s, (fun (x : RelatedCryptoMaterialProperties) _ => x) x s = RelatedCryptoMaterialProperties.ofP (XFields.setText X.relatedCryptoMaterialPropertiesFields s (RelatedCryptoMaterialProperties.toP x)) := (fun _ _ => rfl)
  exact ⟨struct_element (F := X.relatedCryptoMaterialPropertiesFields) (toP := RelatedCryptoMaterialProperties.toP) (ofP := RelatedCryptoMaterialProperties.ofP) (fun _ => rfl) hN ht _ _ rfl rfl,
    struct_elem (F := X.relatedCryptoMaterialPropertiesFields) (toP := RelatedCryptoMaterialProperties.toP) (ofP := RelatedCryptoMaterialProperties.ofP) .here (fun _ => rfl) hN he ht (fun _ => rfl) (fun _ _ => rfl),
    struct_elem (F := X.relatedCryptoMaterialPropertiesFields) (toP := RelatedCryptoMaterialProperties.toP) (ofP := RelatedCryptoMaterialProperties.ofP) (.elem .here) (fun _ => rfl) hN he ht (fun _ => rfl) (fun _ _ => rfl),
    struct_elem (F := X.relatedCryptoMaterialPropertiesFields) (toP := RelatedCryptoMaterialProperties.toP) (ofP := RelatedCryptoMaterialProperties.ofP) (.elem (.elem .here)) (fun _ => rfl) hN he ht (fun _ => rfl) (fun _ _ => rfl),
    struct_elem (F := X.relatedCryptoMaterialPropertiesFields) (toP := RelatedCryptoMaterialProperties.toP) (ofP := RelatedCryptoMaterialProperties.ofP) (.elem (.elem (.elem .here))) (fun _ => rfl) hN he ht (fun _ => rfl) (fun _ _ => rfl),
    struct_elem (F := X.relatedCryptoMaterialPropertiesFields) (toP := RelatedCryptoMaterialProperties.toP) (ofP := RelatedCryptoMaterialProperties.ofP) (.elem (.elem (.elem (.elem .here)))) (fun _ => rfl) hN he ht (fun _ => rfl) (fun _ _ => rfl),
    struct_elem (F := X.relatedCryptoMaterialPropertiesFields) (toP := RelatedCryptoMaterialProperties.toP) (ofP := RelatedCryptoMaterialProperties.ofP) (.elem (.elem (.elem (.elem (.elem .here))))) (fun _ => rfl) hN he ht (fun _ => rfl) (fun _ _ => rfl),
    struct_elem (F := X.relatedCryptoMaterialPropertiesFields) (toP := RelatedCryptoMaterialProperties.toP) (ofP := RelatedCryptoMaterialProperties.ofP) (.elem (.elem (.elem (.elem (.elem (.elem .here)))))) (fun _ => rfl) hN he ht (fun _ => rfl) (fun _ _ => rfl),
    struct_elem (F := X.relatedCryptoMaterialPropertiesFields) (toP := RelatedCryptoMaterialProperties.toP) (ofP := RelatedCryptoMaterialProperties.ofP) (.elem (.elem (.elem (.elem (.elem (.elem (.elem .here))))))) (fun _ => rfl) hN he ht (fun _ => rfl) (fun _ _ => rfl),
    struct_elem (F := X.relatedCryptoMaterialPropertiesFields) (toP := RelatedCryptoMaterialProperties.toP) (ofP := RelatedCryptoMaterialProperties.ofP) (.elem (.elem (.elem (.elem (.elem (.elem (.elem (.elem .here)))))))) (fun _ => rfl) hN he ht (fun _ => rfl) (fun _ _ => rfl),
    struct_elem (F := X.relatedCryptoMaterialPropertiesFields) (toP := RelatedCryptoMaterialProperties.toP) (ofP := RelatedCryptoMaterialProperties.ofP) (.elem (.elem (.elem (.elem (.elem (.elem (.elem (.elem (.elem .here))))))))) (fun _ => rfl) hN he ht (fun _ => rfl) (fun _ _ => rfl),
    struct_elem (F := X.relatedCryptoMaterialPropertiesFields) (toP := RelatedCryptoMaterialProperties.toP) (ofP := RelatedCryptoMaterialProperties.ofP) (.elem (.elem (.elem (.elem (.elem (.elem (.elem (.elem (.elem (.elem .here)))))))))) (fun _ => rfl) hN he ht (fun _ => rfl) (fun _ _ => rfl),
    struct_elem (F := X.relatedCryptoMaterialPropertiesFields) (toP := RelatedCryptoMaterialProperties.toP) (ofP := RelatedCryptoMaterialProperties.ofP) (.elem (.elem (.elem (.elem (.elem (.elem (.elem (.elem (.elem (.elem (.elem .here))))))))))) (fun _ => rfl) hN he ht (fun _ => rfl) (fun _ _ => rfl),
    struct_elem (F := X.relatedCryptoMaterialPropertiesFields) (toP := RelatedCryptoMaterialProperties.toP) (ofP := RelatedCryptoMaterialProperties.ofP) (.elem (.elem (.elem (.elem (.elem (.elem (.elem (.elem (.elem (.elem (.elem (.elem .here)))))))))))) (fun _ => rfl) hN he ht (fun _ => rfl) (fun _ _ => rfl),
    struct_elem (F := X.relatedCryptoMaterialPropertiesFields) (toP := RelatedCryptoMaterialProperties.toP) (ofP := RelatedCryptoMaterialProperties.ofP) (.elem (.elem (.elem (.elem (.elem (.elem (.elem (.elem (.elem (.elem (.elem (.elem (.elem .here))))))))))))) (fun _ => rfl) hN he ht (fun _ => rfl) (fun _ _ => rfl)⟩

/-- cyclonedx.go:500-507 -/
theorem xml_elements_cryptoProperties :
    Element X.cryptoProperties [] ["assetType", "algorithmProperties", "certificateProperties", "relatedCryptoMaterialProperties", "protocolProperties", "oid"] (fun (x : CryptoProperties) _ => x) ∧
    ElemField X.cryptoProperties (fun (x : CryptoProperties) _ => x) (.plain "assetType" false X.string) (fun x => x.assetType)
      (fun (x : CryptoProperties) v => { x with assetType := v }) ∧
    ElemField X.cryptoProperties (fun (x : CryptoProperties) _ => x) (.ptr "algorithmProperties" X.cryptoAlgorithmProperties) (fun x => x.algorithmProperties)
      (fun (x : CryptoProperties) v => { x with algorithmProperties := v }) ∧
    ElemField X.cryptoProperties (fun (x : CryptoProperties) _ => x) (.ptr "certificateProperties" X.certificateProperties) (fun x => x.certificateProperties)
      (fun (x : CryptoProperties) v => { x with certificateProperties := v }) ∧
    ElemField X.cryptoProperties (fun (x : CryptoProperties) _ => x) (.ptr "relatedCryptoMaterialProperties" X.relatedCryptoMaterialProperties) (fun x => x.relatedCryptoMaterialProperties)
      (fun (x : CryptoProperties) v => { x with relatedCryptoMaterialProperties := v }) ∧
    ElemField X.cryptoProperties (fun (x : CryptoProperties) _ => x) (.ptr "protocolProperties" X.cryptoProtocolProperties) (fun x => x.protocolProperties)
      (fun (x : CryptoProperties) v => { x with protocolProperties := v }) ∧
    ElemField X.cryptoProperties (fun (x : CryptoProperties) _ => x) (.plain "oid" true X.string) (fun x => x.oid)
      (fun (x : CryptoProperties) v => { x with oid := v }) := by
  have hN : XFields.Named X.cryptoPropertiesFields := by
    have : XNames X.cryptoPropertiesFields := by unfold X.cryptoPropertiesFields; infer_instance
    exact this.named
  have ha : XFields.attrNames X.cryptoPropertiesFields |>.Nodup := show ([] : List String).Nodup by decide +kernel
  have he : XFields.elemNames X.cryptoPropertiesFields |>.Nodup := show (["assetType", "algorithmProperties", "certificateProperties", "relatedCryptoMaterialProperties", "protocolProperties", "oid"] : List String).Nodup by decide +kernel
  have ht : ∀ x s, (fun (x : CryptoProperties) _ => x) x s = CryptoProperties.ofP (XFields.setText X.cryptoPropertiesFields s (CryptoProperties.toP x)) := (fun _ _ => rfl)
  exact ⟨struct_element (F := X.cryptoPropertiesFields) (toP := CryptoProperties.toP) (ofP := CryptoProperties.ofP) (fun _ => rfl) hN ht _ _ rfl rfl,
    struct_elem (F := X.cryptoPropertiesFields) (toP := CryptoProperties.toP) (ofP := CryptoProperties.ofP) .here (fun _ => rfl) hN he ht (fun _ => rfl) (fun _ _ => rfl),
    struct_elem (F := X.cryptoPropertiesFields) (toP := CryptoProperties.toP) (ofP := CryptoProperties.ofP) (.elem .here) (fun _ => rfl) hN he ht (fun _ => rfl) (fun _ _ => rfl),
    struct_elem (F := X.cryptoPropertiesFields) (toP := CryptoProperties.toP) (ofP := CryptoProperties.ofP) (.elem (.elem .here)) (fun _ => rfl) hN he ht (fun _ => rfl) (fun _ _ => rfl),
    struct_elem (F := X.cryptoPropertiesFields) (toP := CryptoProperties.toP) (ofP := CryptoProperties.ofP) (.elem (.elem (.elem .here))) (fun _ => rfl) hN he ht (fun _ => rfl) (fun _ _ => rfl),
    struct_elem (F := X.cryptoPropertiesFields) (toP := CryptoProperties.toP) (ofP := CryptoProperties.ofP) (.elem (.elem (.elem (.elem .here)))) (fun _ => rfl) hN he ht (fun _ => rfl) (fun _ _ => rfl),
    struct_elem (F := X.cryptoPropertiesFields) (toP := CryptoProperties.toP) (ofP := CryptoProperties.ofP) (.elem (.elem (.elem (.elem (.elem .here))))) (fun _ => rfl) hN he ht (fun _ => rfl) (fun _ _ => rfl)⟩

/-- cyclonedx.go:161-169 -/
theorem xml_elements_callstackFrame :
    Element X.callstackFrame [] ["package", "module", "function", "parameters", "line", "column", "fullFilename"] (fun (x : CallstackFrame) _ => x) ∧
    ElemField X.callstackFrame (fun (x : CallstackFrame) _ => x) (.plain "package" true X.string) (fun x => x.package)
      (fun (x : CallstackFrame) v => { x with package := v }) ∧
    ElemField X.callstackFrame (fun (x : CallstackFrame) _ => x) (.plain "module" true X.string) (fun x => x.module)
      (fun (x : CallstackFrame) v => { x with module := v }) ∧
    ElemField X.callstackFrame (fun (x : CallstackFrame) _ => x) (.plain "function" true X.string) (fun x => x.function)
      (fun (x : CallstackFrame) v => { x with function := v }) ∧
    ElemField X.callstackFrame (fun (x : CallstackFrame) _ => x) (.nlist "parameters" "parameter" true X.string) (fun x => x.parameters)
      (fun (x : CallstackFrame) v => { x with parameters := v }) ∧
    ElemField X.callstackFrame (fun (x : CallstackFrame) _ => x) (.ptr "line" X.int) (fun x => x.line)
      (fun (x : CallstackFrame) v => { x with line := v }) ∧
    ElemField X.callstackFrame (fun (x : CallstackFrame) _ => x) (.ptr "column" X.int) (fun x => x.column)
      (fun (x : CallstackFrame) v => { x with column := v }) ∧
    ElemField X.callstackFrame (fun (x : CallstackFrame) _ => x) (.plain "fullFilename" true X.string) (fun x => x.fullFilename)
      (fun (x : CallstackFrame) v => { x with fullFilename := v }) := by
  have hN : XFields.Named X.callstackFrameFields := by
    have : XNames X.callstackFrameFields := by unfold X.callstackFrameFields; infer_instance
    exact this.named
  have ha : XFields.attrNames X.callstackFrameFields |>.Nodup := show ([] : List String).Nodup by decide +kernel
  have he : XFields.elemNames X.callstackFrameFields |>.Nodup := show (["package", "module", "function", "parameters", "line", "column", "fullFilename"] : List String).Nodup by decide +kernel
  have ht : ∀ x s, (fun (x : CallstackFrame) _ => x) x s = CallstackFrame.ofP (XFields.setText X.callstackFrameFields s (CallstackFrame.toP x)) := (fun _ _ => rfl)
  exact ⟨struct_element (F := X.callstackFrameFields) (toP := CallstackFrame.toP) (ofP := CallstackFrame.ofP) (fun _ => rfl) hN ht _ _ rfl rfl,
    struct_elem (F := X.callstackFrameFields) (toP := CallstackFrame.toP) (ofP := CallstackFrame.ofP) .here (fun _ => rfl) hN he ht (fun _ => rfl) (fun _ _ => rfl),
    struct_elem (F := X.callstackFrameFields) (toP := CallstackFrame.toP) (ofP := CallstackFrame.ofP) (.elem .here) (fun _ => rfl) hN he ht (fun _ => rfl) (fun _ _ => rfl),
    struct_elem (F := X.callstackFrameFields) (toP := CallstackFrame.toP) (ofP := CallstackFrame.ofP) (.elem (.elem .here)) (fun _ => rfl) hN he ht (fun _ => rfl) (fun _ _ => rfl),
    struct_elem (F := X.callstackFrameFields) (toP := CallstackFrame.toP) (ofP := CallstackFrame.ofP) (.elem (.elem (.elem .here))) (fun _ => rfl) hN he ht (fun _ => rfl) (fun _ _ => rfl),
    struct_elem (F := X.callstackFrameFields) (toP := CallstackFrame.toP) (ofP := CallstackFrame.ofP) (.elem (.elem (.elem (.elem .here)))) (fun _ => rfl) hN he ht (fun _ => rfl) (fun _ _ => rfl),
    struct_elem (F := X.callstackFrameFields) (toP := CallstackFrame.toP) (ofP := CallstackFrame.ofP) (.elem (.elem (.elem (.elem (.elem .here))))) (fun _ => rfl) hN he ht (fun _ => rfl) (fun _ _ => rfl),
    struct_elem (F := X.callstackFrameFields) (toP := CallstackFrame.toP) (ofP := CallstackFrame.ofP) (.elem (.elem (.elem (.elem (.elem (.elem .here)))))) (fun _ => rfl) hN he ht (fun _ => rfl) (fun _ _ => rfl)⟩

/-- cyclonedx.go:157-159 -/
theorem xml_elements_callstack :
    Element X.callstack [] ["frames"] (fun (x : Callstack) _ => x) ∧
    ElemField X.callstack (fun (x : Callstack) _ => x) (.nlist "frames" "frame" true X.callstackFrame) (fun x => x.frames)
      (fun (x : Callstack) v => { x with frames := v }) := by
  have hN : XFields.Named X.callstackFields := by
    have : XNames X.callstackFields := by unfold X.callstackFields; infer_instance
    exact this.named
  have ha : XFields.attrNames X.callstackFields |>.Nodup := show ([] : List String).Nodup by decide +kernel
  have he : XFields.elemNames X.callstackFields |>.Nodup := show (["frames"] : List String).Nodup by decide +kernel
  have ht : ∀ x s, (fun (x : Callstack) _ => x) x s = Callstack.ofP (XFields.setText X.callstackFields s (Callstack.toP x)) := (fun _ _ => rfl)
  exact ⟨struct_element (F := X.callstackFields) (toP := Callstack.toP) (ofP := Callstack.ofP) (fun _ => rfl) hN ht _ _ rfl rfl,
    struct_elem (F := X.callstackFields) (toP := Callstack.toP) (ofP := Callstack.ofP) .here (fun _ => rfl) hN he ht (fun _ => rfl) (fun _ _ => rfl)⟩

/-- cyclonedx.go:710-714 -/
theorem xml_elements_evidenceIdentityMethod :
    Element X.evidenceIdentityMethod [] ["technique", "confidence", "value"] (fun (x : EvidenceIdentityMethod) _ => x) ∧
    ElemField X.evidenceIdentityMethod (fun (x : EvidenceIdentityMethod) _ => x) (.plain "technique" true X.string) (fun x => x.technique)
      (fun (x : EvidenceIdentityMethod) v => { x with technique := v }) ∧
    ElemField X.evidenceIdentityMethod (fun (x : EvidenceIdentityMethod) _ => x) (.ptr "confidence" X.f32) (fun x => x.confidence)
      (fun (x : EvidenceIdentityMethod) v => { x with confidence := v }) ∧
    ElemField X.evidenceIdentityMethod (fun (x : EvidenceIdentityMethod) _ => x) (.plain "value" true X.string) (fun x => x.value)
      (fun (x : EvidenceIdentityMethod) v => { x with value := v }) := by
  have hN : XFields.Named X.evidenceIdentityMethodFields := by
    have : XNames X.evidenceIdentityMethodFields := by unfold X.evidenceIdentityMethodFields; infer_instance
    exact this.named
  have ha : XFields.attrNames X.evidenceIdentityMethodFields |>.Nodup := show ([] : List String).Nodup by decide +kernel
  have he : XFields.elemNames X.evidenceIdentityMethodFields |>.Nodup := show (["technique", "confidence", "value"] : List String).Nodup by decide +kernel
  have ht : ∀ x s, (fun (x : EvidenceIdentityMethod) _ => x) x s = EvidenceIdentityMethod.ofP (XFields.setText X.evidenceIdentityMethodFields s (EvidenceIdentityMethod.toP x)) := (fun _ _ => rfl)
  exact ⟨struct_element (F := X.evidenceIdentityMethodFields) (toP := EvidenceIdentityMethod.toP) (ofP := EvidenceIdentityMethod.ofP) (fun _ => rfl) hN ht _ _ rfl rfl,
    struct_elem (F := X.evidenceIdentityMethodFields) (toP := EvidenceIdentityMethod.toP) (ofP := EvidenceIdentityMethod.ofP) .here (fun _ => rfl) hN he ht (fun _ => rfl) (fun _ _ => rfl),
    struct_elem (F := X.evidenceIdentityMethodFields) (toP := EvidenceIdentityMethod.toP) (ofP := EvidenceIdentityMethod.ofP) (.elem .here) (fun _ => rfl) hN he ht (fun _ => rfl) (fun _ _ => rfl),
    struct_elem (F := X.evidenceIdentityMethodFields) (toP := EvidenceIdentityMethod.toP) (ofP := EvidenceIdentityMethod.ofP) (.elem (.elem .here)) (fun _ => rfl) hN he ht (fun _ => rfl) (fun _ _ => rfl)⟩

/-- cyclonedx.go:688-694 -/
theorem xml_elements_evidenceIdentity :
    Element X.evidenceIdentity [] ["field", "confidence", "concludedValue", "methods", "tools"] (fun (x : EvidenceIdentity) _ => x) ∧
    ElemField X.evidenceIdentity (fun (x : EvidenceIdentity) _ => x) (.plain "field" true X.string) (fun x => x.field)
      (fun (x : EvidenceIdentity) v => { x with field := v }) ∧
    ElemField X.evidenceIdentity (fun (x : EvidenceIdentity) _ => x) (.ptr "confidence" X.f32) (fun x => x.confidence)
      (fun (x : EvidenceIdentity) v => { x with confidence := v }) ∧
    ElemField X.evidenceIdentity (fun (x : EvidenceIdentity) _ => x) (.plain "concludedValue" true X.string) (fun x => x.concludedValue)
      (fun (x : EvidenceIdentity) v => { x with concludedValue := v }) ∧
    ElemField X.evidenceIdentity (fun (x : EvidenceIdentity) _ => x) (.nlist "methods" "method" true X.evidenceIdentityMethod) (fun x => x.methods)
      (fun (x : EvidenceIdentity) v => { x with methods := v }) ∧
    ElemField X.evidenceIdentity (fun (x : EvidenceIdentity) _ => x) (.nlist "tools" "tool" true X.bomReference) (fun x => x.tools)
      (fun (x : EvidenceIdentity) v => { x with tools := v }) := by
  have hN : XFields.Named X.evidenceIdentityFields := by
    have : XNames X.evidenceIdentityFields := by unfold X.evidenceIdentityFields; infer_instance
    exact this.named
  have ha : XFields.attrNames X.evidenceIdentityFields |>.Nodup := show ([] : List String).Nodup by decide +kernel
  have he : XFields.elemNames X.evidenceIdentityFields |>.Nodup := show (["field", "confidence", "concludedValue", "methods", "tools"] : List String).Nodup by decide +kernel
  have ht : ∀ x s, (fun (x : EvidenceIdentity) _ => x) x s = EvidenceIdentity.ofP (XFields.setText X.evidenceIdentityFields s (EvidenceIdentity.toP x)) := (fun _ _ => rfl)
  exact ⟨struct_element (F := X.evidenceIdentityFields) (toP := EvidenceIdentity.toP) (ofP := EvidenceIdentity.ofP) (fun _ => rfl) hN ht _ _ rfl rfl,
    struct_elem (F := X.evidenceIdentityFields) (toP := EvidenceIdentity.toP) (ofP := EvidenceIdentity.ofP) .here (fun _ => rfl) hN he ht (fun _ => rfl) (fun _ _ => rfl),
    struct_elem (F := X.evidenceIdentityFields) (toP := EvidenceIdentity.toP) (ofP := EvidenceIdentity.ofP) (.elem .here) (fun _ => rfl) hN he ht (fun _ => rfl) (fun _ _ => rfl),
    struct_elem (F := X.evidenceIdentityFields) (toP := EvidenceIdentity.toP) (ofP := EvidenceIdentity.ofP) (.elem (.elem .here)) (fun _ => rfl) hN he ht (fun _ => rfl) (fun _ _ => rfl),
    struct_elem (F := X.evidenceIdentityFields) (toP := EvidenceIdentity.toP) (ofP := EvidenceIdentity.ofP) (.elem (.elem (.elem .here))) (fun _ => rfl) hN he ht (fun _ => rfl) (fun _ _ => rfl),
    struct_elem (F := X.evidenceIdentityFields) (toP := EvidenceIdentity.toP) (ofP := EvidenceIdentity.ofP) (.elem (.elem (.elem (.elem .here)))) (fun _ => rfl) hN he ht (fun _ => rfl) (fun _ _ => rfl)⟩

/-- cyclonedx.go:731-738 -/
theorem xml_elements_evidenceOccurrence :
    Element X.evidenceOccurrence ["bom-ref", "line", "offset", "symbol", "additionalContext"] ["location"] (fun (x : EvidenceOccurrence) _ => x) ∧
    AttrField X.evidenceOccurrence (fun (x : EvidenceOccurrence) _ => x) "bom-ref" false XText.string (fun x => x.bomRef)
      (fun (x : EvidenceOccurrence) v => { x with bomRef := v }) ∧
    ElemField X.evidenceOccurrence (fun (x : EvidenceOccurrence) _ => x) (.plain "location" true X.string) (fun x => x.location)
      (fun (x : EvidenceOccurrence) v => { x with location := v }) ∧
    AttrPtrField X.evidenceOccurrence (fun (x : EvidenceOccurrence) _ => x) "line" XText.int (fun x => x.line)
      (fun (x : EvidenceOccurrence) v => { x with line := v }) ∧
    AttrPtrField X.evidenceOccurrence (fun (x : EvidenceOccurrence) _ => x) "offset" XText.int (fun x => x.offset)
      (fun (x : EvidenceOccurrence) v => { x with offset := v }) ∧
    AttrField X.evidenceOccurrence (fun (x : EvidenceOccurrence) _ => x) "symbol" false XText.string (fun x => x.symbol)
      (fun (x : EvidenceOccurrence) v => { x with symbol := v }) ∧
    AttrField X.evidenceOccurrence (fun (x : EvidenceOccurrence) _ => x) "additionalContext" false XText.string (fun x => x.additionalContext)
      (fun (x : EvidenceOccurrence) v => { x with additionalContext := v }) := by
  have hN : XFields.Named X.evidenceOccurrenceFields := by
    have : XNames X.evidenceOccurrenceFields := by unfold X.evidenceOccurrenceFields; infer_instance
    exact this.named
  have ha : XFields.attrNames X.evidenceOccurrenceFields |>.Nodup := show (["bom-ref", "line", "offset", "symbol", "additionalContext"] : List String).Nodup by decide +kernel
  have he : XFields.elemNames X.evidenceOccurrenceFields |>.Nodup := show (["location"] : List String).Nodup by decide +kernel
  have ht : ∀ x s, (fun (x : EvidenceOccurrence) _ => x) x s = EvidenceOccurrence.ofP (XFields.setText X.evidenceOccurrenceFields s (EvidenceOccurrence.toP x)) := (fun _ _ => rfl)
  exact ⟨struct_element (F := X.evidenceOccurrenceFields) (toP := EvidenceOccurrence.toP) (ofP := EvidenceOccurrence.ofP) (fun _ => rfl) hN ht _ _ rfl rfl,
    struct_attr (F := X.evidenceOccurrenceFields) (toP := EvidenceOccurrence.toP) (ofP := EvidenceOccurrence.ofP) .here (fun _ => rfl) ha ht (fun _ => rfl) (fun _ _ => rfl),
    struct_elem (F := X.evidenceOccurrenceFields) (toP := EvidenceOccurrence.toP) (ofP := EvidenceOccurrence.ofP) (.attr .here) (fun _ => rfl) hN he ht (fun _ => rfl) (fun _ _ => rfl),
    struct_attrPtr (F := X.evidenceOccurrenceFields) (toP := EvidenceOccurrence.toP) (ofP := EvidenceOccurrence.ofP) (.attr (.elem .here)) (fun _ => rfl) ha ht (fun _ => rfl) (fun _ _ => rfl),
    struct_attrPtr (F := X.evidenceOccurrenceFields) (toP := EvidenceOccurrence.toP) (ofP := EvidenceOccurrence.ofP) (.attr (.elem (.attrPtr .here))) (fun _ => rfl) ha ht (fun _ => rfl) (fun _ _ => rfl),
    struct_attr (F := X.evidenceOccurrenceFields) (toP := EvidenceOccurrence.toP) (ofP := EvidenceOccurrence.ofP) (.attr (.elem (.attrPtr (.attrPtr .here)))) (fun _ => rfl) ha ht (fun _ => rfl) (fun _ _ => rfl),
    struct_attr (F := X.evidenceOccurrenceFields) (toP := EvidenceOccurrence.toP) (ofP := EvidenceOccurrence.ofP) (.attr (.elem (.attrPtr (.attrPtr (.attr .here))))) (fun _ => rfl) ha ht (fun _ => rfl) (fun _ _ => rfl)⟩

/-- cyclonedx.go:1226-1229 -/
theorem xml_elements_organizationalEntityOrContact :
    Element X.organizationalEntityOrContact [] ["organization", "individual"] (fun (x : OrganizationalEntityOrContact) _ => x) ∧
    ElemField X.organizationalEntityOrContact (fun (x : OrganizationalEntityOrContact) _ => x) (.ptr "organization" X.organizationalEntity) (fun x => x.organization)
      (fun (x : OrganizationalEntityOrContact) v => { x with organization := v }) ∧
    ElemField X.organizationalEntityOrContact (fun (x : OrganizationalEntityOrContact) _ => x) (.ptr "individual" X.organizationalContact) (fun x => x.individual)
      (fun (x : OrganizationalEntityOrContact) v => { x with individual := v }) := by
  have hN : XFields.Named X.organizationalEntityOrContactFields := by
    have : XNames X.organizationalEntityOrContactFields := by unfold X.organizationalEntityOrContactFields; infer_instance
    exact this.named
  have ha : XFields.attrNames X.organizationalEntityOrContactFields |>.Nodup := show ([] : List String).Nodup by decide +kernel
  have he : XFields.elemNames X.organizationalEntityOrContactFields |>.Nodup := show (["organization", "individual"] : List String).Nodup by decide +kernel
  have ht : ∀ x s, (fun (x : OrganizationalEntityOrContact) _ => x) x s = OrganizationalEntityOrContact.ofP (XFields.setText X.organizationalEntityOrContactFields s (OrganizationalEntityOrContact.toP x)) := (fun _ _ => rfl)
  exact ⟨struct_element (F := X.organizationalEntityOrContactFields) (toP := OrganizationalEntityOrContact.toP) (ofP := OrganizationalEntityOrContact.ofP) (fun _ => rfl) hN ht _ _ rfl rfl,
    struct_elem (F := X.organizationalEntityOrContactFields) (toP := OrganizationalEntityOrContact.toP) (ofP := OrganizationalEntityOrContact.ofP) .here (fun _ => rfl) hN he ht (fun _ => rfl) (fun _ _ => rfl),
    struct_elem (F := X.organizationalEntityOrContactFields) (toP := OrganizationalEntityOrContact.toP) (ofP := OrganizationalEntityOrContact.ofP) (.elem .here) (fun _ => rfl) hN he ht (fun _ => rfl) (fun _ _ => rfl)⟩

/-- cyclonedx.go:995-1004 -/
theorem xml_elements_licensing :
    Element X.licensing [] ["altIds", "licensor", "licensee", "purchaser", "purchaseOrder", "licenseTypes", "lastRenewal", "expiration"] (fun (x : Licensing) _ => x) ∧
    ElemField X.licensing (fun (x : Licensing) _ => x) (.nlist "altIds" "altId" true X.string) (fun x => x.altIDs)
      (fun (x : Licensing) v => { x with altIDs := v }) ∧
    ElemField X.licensing (fun (x : Licensing) _ => x) (.ptr "licensor" X.organizationalEntityOrContact) (fun x => x.licensor)
      (fun (x : Licensing) v => { x with licensor := v }) ∧
    ElemField X.licensing (fun (x : Licensing) _ => x) (.ptr "licensee" X.organizationalEntityOrContact) (fun x => x.licensee)
      (fun (x : Licensing) v => { x with licensee := v }) ∧
    ElemField X.licensing (fun (x : Licensing) _ => x) (.ptr "purchaser" X.organizationalEntityOrContact) (fun x => x.purchaser)
      (fun (x : Licensing) v => { x with purchaser := v }) ∧
    ElemField X.licensing (fun (x : Licensing) _ => x) (.plain "purchaseOrder" true X.string) (fun x => x.purchaseOrder)
      (fun (x : Licensing) v => { x with purchaseOrder := v }) ∧
    ElemField X.licensing (fun (x : Licensing) _ => x) (.nlist "licenseTypes" "licenseType" true X.string) (fun x => x.licenseTypes)
      (fun (x : Licensing) v => { x with licenseTypes := v }) ∧
    ElemField X.licensing (fun (x : Licensing) _ => x) (.plain "lastRenewal" true X.string) (fun x => x.lastRenewal)
      (fun (x : Licensing) v => { x with lastRenewal := v }) ∧
    ElemField X.licensing (fun (x : Licensing) _ => x) (.plain "expiration" true X.string) (fun x => x.expiration)
      (fun (x : Licensing) v => { x with expiration := v }) := by
  have hN : XFields.Named X.licensingFields := by
    have : XNames X.licensingFields := by unfold X.licensingFields; infer_instance
    exact this.named
  have ha : XFields.attrNames X.licensingFields |>.Nodup := show ([] : List String).Nodup by decide +kernel
  have he : XFields.elemNames X.licensingFields |>.Nodup := show (["altIds", "licensor", "licensee", "purchaser", "purchaseOrder", "licenseTypes", "lastRenewal", "expiration"] : List String).Nodup by decide +kernel
  have ht : ∀ x s, (fun (x : Licensing) _ => x) x s = Licensing.ofP (XFields.setText X.licensingFields s (Licensing.toP x)) := (fun _ _ => rfl)
  exact ⟨struct_element (F := X.licensingFields) (toP := Licensing.toP) (ofP := Licensing.ofP) (fun _ => rfl) hN ht _ _ rfl rfl,
    struct_elem (F := X.licensingFields) (toP := Licensing.toP) (ofP := Licensing.ofP) .here (fun _ => rfl) hN he ht (fun _ => rfl) (fun _ _ => rfl),
    struct_elem (F := X.licensingFields) (toP := Licensing.toP) (ofP := Licensing.ofP) (.elem .here) (fun _ => rfl) hN he ht (fun _ => rfl) (fun _ _ => rfl),
    struct_elem (F := X.licensingFields) (toP := Licensing.toP) (ofP := Licensing.ofP) (.elem (.elem .here)) (fun _ => rfl) hN he ht (fun _ => rfl) (fun _ _ => rfl),
    struct_elem (F := X.licensingFields) (toP := Licensing.toP) (ofP := Licensing.ofP) (.elem (.elem (.elem .here))) (fun _ => rfl) hN he ht (fun _ => rfl) (fun _ _ => rfl),
    struct_elem (F := X.licensingFields) (toP := Licensing.toP) (ofP := Licensing.ofP) (.elem (.elem (.elem (.elem .here)))) (fun _ => rfl) hN he ht (fun _ => rfl) (fun _ _ => rfl),
    struct_elem (F := X.licensingFields) (toP := Licensing.toP) (ofP := Licensing.ofP) (.elem (.elem (.elem (.elem (.elem .here))))) (fun _ => rfl) hN he ht (fun _ => rfl) (fun _ _ => rfl),
    struct_elem (F := X.licensingFields) (toP := Licensing.toP) (ofP := Licensing.ofP) (.elem (.elem (.elem (.elem (.elem (.elem .here)))))) (fun _ => rfl) hN he ht (fun _ => rfl) (fun _ _ => rfl),
    struct_elem (F := X.licensingFields) (toP := Licensing.toP) (ofP := Licensing.ofP) (.elem (.elem (.elem (.elem (.elem (.elem (.elem .here))))))) (fun _ => rfl) hN he ht (fun _ => rfl) (fun _ _ => rfl)⟩

/-- cyclonedx.go:936-945 -/
theorem xml_elements_license :
    Element X.license ["bom-ref", "acknowledgement"] ["id", "name", "text", "url", "licensing", "properties"] (fun (x : License) _ => x) ∧
    AttrField X.license (fun (x : License) _ => x) "bom-ref" false XText.string (fun x => x.bomRef)
      (fun (x : License) v => { x with bomRef := v }) ∧
    ElemField X.license (fun (x : License) _ => x) (.plain "id" true X.string) (fun x => x.id)
      (fun (x : License) v => { x with id := v }) ∧
    ElemField X.license (fun (x : License) _ => x) (.plain "name" true X.string) (fun x => x.name)
      (fun (x : License) v => { x with name := v }) ∧
    AttrField X.license (fun (x : License) _ => x) "acknowledgement" false XText.string (fun x => x.acknowledgement)
      (fun (x : License) v => { x with acknowledgement := v }) ∧
    ElemField X.license (fun (x : License) _ => x) (.ptr "text" X.attachedText) (fun x => x.text)
      (fun (x : License) v => { x with text := v }) ∧
    ElemField X.license (fun (x : License) _ => x) (.plain "url" true X.string) (fun x => x.url)
      (fun (x : License) v => { x with url := v }) ∧
    ElemField X.license (fun (x : License) _ => x) (.ptr "licensing" X.licensing) (fun x => x.licensing)
      (fun (x : License) v => { x with licensing := v }) ∧
    ElemField X.license (fun (x : License) _ => x) (.nlist "properties" "property" true X.property) (fun x => x.properties)
      (fun (x : License) v => { x with properties := v }) := by
  have hN : XFields.Named X.licenseFields := by
    have : XNames X.licenseFields := by unfold X.licenseFields; infer_instance
    exact this.named
  have ha : XFields.attrNames X.licenseFields |>.Nodup := show (["bom-ref", "acknowledgement"] : List String).Nodup by decide +kernel
  have he : XFields.elemNames X.licenseFields |>.Nodup := show (["id", "name", "text", "url", "licensing", "properties"] : List String).Nodup by decide +kernel
  have ht : ∀ x s, (fun (x : License) _ => x) x s = License.ofP (XFields.setText X.licenseFields s (License.toP x)) := (fun _ _ => rfl)
  have hl : ∀ t x o, X.license.enc t x = some o → X.licenseAlias.enc t x = some o := fun t x o h => by
    simp only [X.license] at h
    split at h
    · cases h
    · split at h
      · cases h
      · exact h
  exact ⟨(struct_element (F := X.licenseFields) (toP := License.toP) (ofP := License.ofP) (fun _ => rfl) hN ht _ _ rfl rfl).congr hl (fun _ _ => rfl),
    (struct_attr (F := X.licenseFields) (toP := License.toP) (ofP := License.ofP) .here (fun _ => rfl) ha ht (fun _ => rfl) (fun _ _ => rfl)).congr hl (fun _ _ => rfl),
    (struct_elem (F := X.licenseFields) (toP := License.toP) (ofP := License.ofP) (.attr .here) (fun _ => rfl) hN he ht (fun _ => rfl) (fun _ _ => rfl)).congr hl (fun _ _ => rfl),
    (struct_elem (F := X.licenseFields) (toP := License.toP) (ofP := License.ofP) (.attr (.elem .here)) (fun _ => rfl) hN he ht (fun _ => rfl) (fun _ _ => rfl)).congr hl (fun _ _ => rfl),
    (struct_attr (F := X.licenseFields) (toP := License.toP) (ofP := License.ofP) (.attr (.elem (.elem .here))) (fun _ => rfl) ha ht (fun _ => rfl) (fun _ _ => rfl)).congr hl (fun _ _ => rfl),
    (struct_elem (F := X.licenseFields) (toP := License.toP) (ofP := License.ofP) (.attr (.elem (.elem (.attr .here)))) (fun _ => rfl) hN he ht (fun _ => rfl) (fun _ _ => rfl)).congr hl (fun _ _ => rfl),
    (struct_elem (F := X.licenseFields) (toP := License.toP) (ofP := License.ofP) (.attr (.elem (.elem (.attr (.elem .here))))) (fun _ => rfl) hN he ht (fun _ => rfl) (fun _ _ => rfl)).congr hl (fun _ _ => rfl),
    (struct_elem (F := X.licenseFields) (toP := License.toP) (ofP := License.ofP) (.attr (.elem (.elem (.attr (.elem (.elem .here)))))) (fun _ => rfl) hN he ht (fun _ => rfl) (fun _ _ => rfl)).congr hl (fun _ _ => rfl),
    (struct_elem (F := X.licenseFields) (toP := License.toP) (ofP := License.ofP) (.attr (.elem (.elem (.attr (.elem (.elem (.elem .here))))))) (fun _ => rfl) hN he ht (fun _ => rfl) (fun _ _ => rfl)).congr hl (fun _ _ => rfl)⟩

/-- cyclonedx.go:740-746 -/
theorem xml_elements_externalReference :
    Element X.externalReference ["type"] ["url", "comment", "hashes", "properties"] (fun (x : ExternalReference) _ => x) ∧
    ElemField X.externalReference (fun (x : ExternalReference) _ => x) (.plain "url" false X.string) (fun x => x.url)
      (fun (x : ExternalReference) v => { x with url := v }) ∧
    ElemField X.externalReference (fun (x : ExternalReference) _ => x) (.plain "comment" true X.string) (fun x => x.comment)
      (fun (x : ExternalReference) v => { x with comment := v }) ∧
    ElemField X.externalReference (fun (x : ExternalReference) _ => x) (.nlist "hashes" "hash" true X.hash) (fun x => x.hashes)
      (fun (x : ExternalReference) v => { x with hashes := v }) ∧
    AttrField X.externalReference (fun (x : ExternalReference) _ => x) "type" true XText.string (fun x => x.type)
      (fun (x : ExternalReference) v => { x with type := v }) ∧
    ElemField X.externalReference (fun (x : ExternalReference) _ => x) (.nlist "properties" "property" true X.property) (fun x => x.properties)
      (fun (x : ExternalReference) v => { x with properties := v }) := by
  have hN : XFields.Named X.externalReferenceFields := by
    have : XNames X.externalReferenceFields := by unfold X.externalReferenceFields; infer_instance
    exact this.named
  have ha : XFields.attrNames X.externalReferenceFields |>.Nodup := show (["type"] : List String).Nodup by decide +kernel
  have he : XFields.elemNames X.externalReferenceFields |>.Nodup := show (["url", "comment", "hashes", "properties"] : List String).Nodup by decide +kernel
  have ht : ∀ x s, (fun (x : ExternalReference) _ => x) x s = ExternalReference.ofP (XFields.setText X.externalReferenceFields s (ExternalReference.toP x)) := (fun _ _ => rfl)
  exact ⟨struct_element (F := X.externalReferenceFields) (toP := ExternalReference.toP) (ofP := ExternalReference.ofP) (fun _ => rfl) hN ht _ _ rfl rfl,
    struct_elem (F := X.externalReferenceFields) (toP := ExternalReference.toP) (ofP := ExternalReference.ofP) .here (fun _ => rfl) hN he ht (fun _ => rfl) (fun _ _ => rfl),
    struct_elem (F := X.externalReferenceFields) (toP := ExternalReference.toP) (ofP := ExternalReference.ofP) (.elem .here) (fun _ => rfl) hN he ht (fun _ => rfl) (fun _ _ => rfl),
    struct_elem (F := X.externalReferenceFields) (toP := ExternalReference.toP) (ofP := ExternalReference.ofP) (.elem (.elem .here)) (fun _ => rfl) hN he ht (fun _ => rfl) (fun _ _ => rfl),
    struct_attr (F := X.externalReferenceFields) (toP := ExternalReference.toP) (ofP := ExternalReference.ofP) (.elem (.elem (.elem .here))) (fun _ => rfl) ha ht (fun _ => rfl) (fun _ _ => rfl),
    struct_elem (F := X.externalReferenceFields) (toP := ExternalReference.toP) (ofP := ExternalReference.ofP) (.elem (.elem (.elem (.attr .here)))) (fun _ => rfl) hN he ht (fun _ => rfl) (fun _ _ => rfl)⟩

/-- cyclonedx.go:1099-1102 -/
theorem xml_elements_mlModelCO2Measure :
    Element X.mlModelCO2Measure [] ["value", "unit"] (fun (x : MLModelCO2Measure) _ => x) ∧
    ElemField X.mlModelCO2Measure (fun (x : MLModelCO2Measure) _ => x) (.plain "value" false X.f32) (fun x => x.value)
      (fun (x : MLModelCO2Measure) v => { x with value := v }) ∧
    ElemField X.mlModelCO2Measure (fun (x : MLModelCO2Measure) _ => x) (.plain "unit" false X.string) (fun x => x.unit)
      (fun (x : MLModelCO2Measure) v => { x with unit := v }) := by
  have hN : XFields.Named X.mlModelCO2MeasureFields := by
    have : XNames X.mlModelCO2MeasureFields := by unfold X.mlModelCO2MeasureFields; infer_instance
    exact this.named
  have ha : XFields.attrNames X.mlModelCO2MeasureFields |>.Nodup := show ([] : List String).Nodup by decide +kernel
  have he : XFields.elemNames X.mlModelCO2MeasureFields |>.Nodup := show (["value", "unit"] : List String).Nodup by decide +kernel
  have ht : ∀ x s, (fun (x : MLModelCO2Measure) _ => x) x s = MLModelCO2Measure.ofP (XFields.setText X.mlModelCO2MeasureFields s (MLModelCO2Measure.toP x)) := (fun _ _ => rfl)
  exact ⟨struct_element (F := X.mlModelCO2MeasureFields) (toP := MLModelCO2Measure.toP) (ofP := MLModelCO2Measure.ofP) (fun _ => rfl) hN ht _ _ rfl rfl,
    struct_elem (F := X.mlModelCO2MeasureFields) (toP := MLModelCO2Measure.toP) (ofP := MLModelCO2Measure.ofP) .here (fun _ => rfl) hN he ht (fun _ => rfl) (fun _ _ => rfl),
    struct_elem (F := X.mlModelCO2MeasureFields) (toP := MLModelCO2Measure.toP) (ofP := MLModelCO2Measure.ofP) (.elem .here) (fun _ => rfl) hN he ht (fun _ => rfl) (fun _ _ => rfl)⟩

/-- cyclonedx.go:1131-1134 -/
theorem xml_elements_mlModelEnergyMeasure :
    Element X.mlModelEnergyMeasure [] ["value", "unit"] (fun (x : MLModelEnergyMeasure) _ => x) ∧
    ElemField X.mlModelEnergyMeasure (fun (x : MLModelEnergyMeasure) _ => x) (.plain "value" false X.f32) (fun x => x.value)
      (fun (x : MLModelEnergyMeasure) v => { x with value := v }) ∧
    ElemField X.mlModelEnergyMeasure (fun (x : MLModelEnergyMeasure) _ => x) (.plain "unit" false X.string) (fun x => x.unit)
      (fun (x : MLModelEnergyMeasure) v => { x with unit := v }) := by
  have hN : XFields.Named X.mlModelEnergyMeasureFields := by
    have : XNames X.mlModelEnergyMeasureFields := by unfold X.mlModelEnergyMeasureFields; infer_instance
    exact this.named
  have ha : XFields.attrNames X.mlModelEnergyMeasureFields |>.Nodup := show ([] : List String).Nodup by decide +kernel
  have he : XFields.elemNames X.mlModelEnergyMeasureFields |>.Nodup := show (["value", "unit"] : List String).Nodup by decide +kernel
  have ht : ∀ x s, (fun (x : MLModelEnergyMeasure) _ => x) x s = MLModelEnergyMeasure.ofP (XFields.setText X.mlModelEnergyMeasureFields s (MLModelEnergyMeasure.toP x)) := (fun _ _ => rfl)
  exact ⟨struct_element (F := X.mlModelEnergyMeasureFields) (toP := MLModelEnergyMeasure.toP) (ofP := MLModelEnergyMeasure.ofP) (fun _ => rfl) hN ht _ _ rfl rfl,
    struct_elem (F := X.mlModelEnergyMeasureFields) (toP := MLModelEnergyMeasure.toP) (ofP := MLModelEnergyMeasure.ofP) .here (fun _ => rfl) hN he ht (fun _ => rfl) (fun _ _ => rfl),
    struct_elem (F := X.mlModelEnergyMeasureFields) (toP := MLModelEnergyMeasure.toP) (ofP := MLModelEnergyMeasure.ofP) (.elem .here) (fun _ => rfl) hN he ht (fun _ => rfl) (fun _ _ => rfl)⟩

/-- cyclonedx.go:1136-1143 -/
theorem xml_elements_mlModelEnergyProvider :
    Element X.mlModelEnergyProvider ["bom-ref"] ["description", "organization", "energySource", "energyProvided", "externalReferences"] (fun (x : MLModelEnergyProvider) _ => x) ∧
    AttrField X.mlModelEnergyProvider (fun (x : MLModelEnergyProvider) _ => x) "bom-ref" false XText.string (fun x => x.bomRef)
      (fun (x : MLModelEnergyProvider) v => { x with bomRef := v }) ∧
    ElemField X.mlModelEnergyProvider (fun (x : MLModelEnergyProvider) _ => x) (.plain "description" true X.string) (fun x => x.description)
      (fun (x : MLModelEnergyProvider) v => { x with description := v }) ∧
    ElemField X.mlModelEnergyProvider (fun (x : MLModelEnergyProvider) _ => x) (.ptr "organization" X.organizationalEntity) (fun x => x.organization)
      (fun (x : MLModelEnergyProvider) v => { x with organization := v }) ∧
    ElemField X.mlModelEnergyProvider (fun (x : MLModelEnergyProvider) _ => x) (.plain "energySource" false X.string) (fun x => x.energySource)
      (fun (x : MLModelEnergyProvider) v => { x with energySource := v }) ∧
    ElemField X.mlModelEnergyProvider (fun (x : MLModelEnergyProvider) _ => x) (.ptr "energyProvided" X.mlModelEnergyMeasure) (fun x => x.energyProvided)
      (fun (x : MLModelEnergyProvider) v => { x with energyProvided := v }) ∧
    ElemField X.mlModelEnergyProvider (fun (x : MLModelEnergyProvider) _ => x) (.nlist "externalReferences" "reference" true X.externalReference) (fun x => x.externalReferences)
      (fun (x : MLModelEnergyProvider) v => { x with externalReferences := v }) := by
  have hN : XFields.Named X.mlModelEnergyProviderFields := by
    have : XNames X.mlModelEnergyProviderFields := by unfold X.mlModelEnergyProviderFields; infer_instance
    exact this.named
  have ha : XFields.attrNames X.mlModelEnergyProviderFields |>.Nodup := show (["bom-ref"] : List String).Nodup by decide +kernel
  have he : XFields.elemNames X.mlModelEnergyProviderFields |>.Nodup := show (["description", "organization", "energySource", "energyProvided", "externalReferences"] : List String).Nodup by decide +kernel
  have ht : ∀ x s, (fun (x : MLModelEnergyProvider) _ => x) x s = MLModelEnergyProvider.ofP (XFields.setText X.mlModelEnergyProviderFields s (MLModelEnergyProvider.toP x)) := (fun _ _ => rfl)
  exact ⟨struct_element (F := X.mlModelEnergyProviderFields) (toP := MLModelEnergyProvider.toP) (ofP := MLModelEnergyProvider.ofP) (fun _ => rfl) hN ht _ _ rfl rfl,
    struct_attr (F := X.mlModelEnergyProviderFields) (toP := MLModelEnergyProvider.toP) (ofP := MLModelEnergyProvider.ofP) .here (fun _ => rfl) ha ht (fun _ => rfl) (fun _ _ => rfl),
    struct_elem (F := X.mlModelEnergyProviderFields) (toP := MLModelEnergyProvider.toP) (ofP := MLModelEnergyProvider.ofP) (.attr .here) (fun _ => rfl) hN he ht (fun _ => rfl) (fun _ _ => rfl),
    struct_elem (F := X.mlModelEnergyProviderFields) (toP := MLModelEnergyProvider.toP) (ofP := MLModelEnergyProvider.ofP) (.attr (.elem .here)) (fun _ => rfl) hN he ht (fun _ => rfl) (fun _ _ => rfl),
    struct_elem (F := X.mlModelEnergyProviderFields) (toP := MLModelEnergyProvider.toP) (ofP := MLModelEnergyProvider.ofP) (.attr (.elem (.elem .here))) (fun _ => rfl) hN he ht (fun _ => rfl) (fun _ _ => rfl),
    struct_elem (F := X.mlModelEnergyProviderFields) (toP := MLModelEnergyProvider.toP) (ofP := MLModelEnergyProvider.ofP) (.attr (.elem (.elem (.elem .here)))) (fun _ => rfl) hN he ht (fun _ => rfl) (fun _ _ => rfl),
    struct_elem (F := X.mlModelEnergyProviderFields) (toP := MLModelEnergyProvider.toP) (ofP := MLModelEnergyProvider.ofP) (.attr (.elem (.elem (.elem (.elem .here))))) (fun _ => rfl) hN he ht (fun _ => rfl) (fun _ _ => rfl)⟩

/-- cyclonedx.go:1108-1115 -/
theorem xml_elements_mlModelEnergyConsumption :
    Element X.mlModelEnergyConsumption [] ["activity", "energyProviders", "activityEnergyCost", "co2CostEquivalent", "co2CostOffset", "properties"] (fun (x : MLModelEnergyConsumption) _ => x) ∧
    ElemField X.mlModelEnergyConsumption (fun (x : MLModelEnergyConsumption) _ => x) (.plain "activity" false X.string) (fun x => x.activity)
      (fun (x : MLModelEnergyConsumption) v => { x with activity := v }) ∧
    ElemField X.mlModelEnergyConsumption (fun (x : MLModelEnergyConsumption) _ => x) (.list "energyProviders" false X.mlModelEnergyProvider) (fun x => x.energyProviders)
      (fun (x : MLModelEnergyConsumption) v => { x with energyProviders := v }) ∧
    ElemField X.mlModelEnergyConsumption (fun (x : MLModelEnergyConsumption) _ => x) (.plain "activityEnergyCost" false X.mlModelEnergyMeasure) (fun x => x.activityEnergyCost)
      (fun (x : MLModelEnergyConsumption) v => { x with activityEnergyCost := v }) ∧
    ElemField X.mlModelEnergyConsumption (fun (x : MLModelEnergyConsumption) _ => x) (.ptr "co2CostEquivalent" X.mlModelCO2Measure) (fun x => x.co2CostEquivalent)
      (fun (x : MLModelEnergyConsumption) v => { x with co2CostEquivalent := v }) ∧
    ElemField X.mlModelEnergyConsumption (fun (x : MLModelEnergyConsumption) _ => x) (.ptr "co2CostOffset" X.mlModelCO2Measure) (fun x => x.co2CostOffset)
      (fun (x : MLModelEnergyConsumption) v => { x with co2CostOffset := v }) ∧
    ElemField X.mlModelEnergyConsumption (fun (x : MLModelEnergyConsumption) _ => x) (.nlist "properties" "property" true X.property) (fun x => x.properties)
      (fun (x : MLModelEnergyConsumption) v => { x with properties := v }) := by
  have hN : XFields.Named X.mlModelEnergyConsumptionFields := by
    have : XNames X.mlModelEnergyConsumptionFields := by unfold X.mlModelEnergyConsumptionFields; infer_instance
    exact this.named
  have ha : XFields.attrNames X.mlModelEnergyConsumptionFields |>.Nodup := show ([] : List String).Nodup by decide +kernel
  have he : XFields.elemNames X.mlModelEnergyConsumptionFields |>.Nodup := show (["activity", "energyProviders", "activityEnergyCost", "co2CostEquivalent", "co2CostOffset", "properties"] : List String).Nodup by decide +kernel
  have ht : ∀ x s, (fun (x : MLModelEnergyConsumption) _ => x) x s = MLModelEnergyConsumption.ofP (XFields.setText X.mlModelEnergyConsumptionFields s (MLModelEnergyConsumption.toP x)) := (fun _ _ => rfl)
  exact ⟨struct_element (F := X.mlModelEnergyConsumptionFields) (toP := MLModelEnergyConsumption.toP) (ofP := MLModelEnergyConsumption.ofP) (fun _ => rfl) hN ht _ _ rfl rfl,
    struct_elem (F := X.mlModelEnergyConsumptionFields) (toP := MLModelEnergyConsumption.toP) (ofP := MLModelEnergyConsumption.ofP) .here (fun _ => rfl) hN he ht (fun _ => rfl) (fun _ _ => rfl),
    struct_elem (F := X.mlModelEnergyConsumptionFields) (toP := MLModelEnergyConsumption.toP) (ofP := MLModelEnergyConsumption.ofP) (.elem .here) (fun _ => rfl) hN he ht (fun _ => rfl) (fun _ _ => rfl),
    struct_elem (F := X.mlModelEnergyConsumptionFields) (toP := MLModelEnergyConsumption.toP) (ofP := MLModelEnergyConsumption.ofP) (.elem (.elem .here)) (fun _ => rfl) hN he ht (fun _ => rfl) (fun _ _ => rfl),
    struct_elem (F := X.mlModelEnergyConsumptionFields) (toP := MLModelEnergyConsumption.toP) (ofP := MLModelEnergyConsumption.ofP) (.elem (.elem (.elem .here))) (fun _ => rfl) hN he ht (fun _ => rfl) (fun _ _ => rfl),
    struct_elem (F := X.mlModelEnergyConsumptionFields) (toP := MLModelEnergyConsumption.toP) (ofP := MLModelEnergyConsumption.ofP) (.elem (.elem (.elem (.elem .here)))) (fun _ => rfl) hN he ht (fun _ => rfl) (fun _ _ => rfl),
    struct_elem (F := X.mlModelEnergyConsumptionFields) (toP := MLModelEnergyConsumption.toP) (ofP := MLModelEnergyConsumption.ofP) (.elem (.elem (.elem (.elem (.elem .here))))) (fun _ => rfl) hN he ht (fun _ => rfl) (fun _ _ => rfl)⟩

/-- cyclonedx.go:1082-1085 -/
theorem xml_elements_mlModelCardEnvironmentalConsiderations :
    Element X.mlModelCardEnvironmentalConsiderations [] ["energyConsumptions", "properties"] (fun (x : MLModelCardEnvironmentalConsiderations) _ => x) ∧
    ElemField X.mlModelCardEnvironmentalConsiderations (fun (x : MLModelCardEnvironmentalConsiderations) _ => x) (.nlist "energyConsumptions" "energyConsumption" true X.mlModelEnergyConsumption) (fun x => x.energyConsumptions)
      (fun (x : MLModelCardEnvironmentalConsiderations) v => { x with energyConsumptions := v }) ∧
    ElemField X.mlModelCardEnvironmentalConsiderations (fun (x : MLModelCardEnvironmentalConsiderations) _ => x) (.nlist "properties" "property" true X.property) (fun x => x.properties)
      (fun (x : MLModelCardEnvironmentalConsiderations) v => { x with properties := v }) := by
  have hN : XFields.Named X.mlModelCardEnvironmentalConsiderationsFields := by
    have : XNames X.mlModelCardEnvironmentalConsiderationsFields := by unfold X.mlModelCardEnvironmentalConsiderationsFields; infer_instance
    exact this.named
  have ha : XFields.attrNames X.mlModelCardEnvironmentalConsiderationsFields |>.Nodup := show ([] : List String).Nodup by decide +kernel
  have he : XFields.elemNames X.mlModelCardEnvironmentalConsiderationsFields |>.Nodup := show (["energyConsumptions", "properties"] : List String).Nodup by decide +kernel
  have ht : ∀ x s, (fun (x : MLModelCardEnvironmentalConsiderations) _ => x) x s = MLModelCardEnvironmentalConsiderations.ofP (XFields.setText X.mlModelCardEnvironmentalConsiderationsFields s (MLModelCardEnvironmentalConsiderations.toP x)) := (fun _ _ => rfl)
  exact ⟨struct_element (F := X.mlModelCardEnvironmentalConsiderationsFields) (toP := MLModelCardEnvironmentalConsiderations.toP) (ofP := MLModelCardEnvironmentalConsiderations.ofP) (fun _ => rfl) hN ht _ _ rfl rfl,
    struct_elem (F := X.mlModelCardEnvironmentalConsiderationsFields) (toP := MLModelCardEnvironmentalConsiderations.toP) (ofP := MLModelCardEnvironmentalConsiderations.ofP) .here (fun _ => rfl) hN he ht (fun _ => rfl) (fun _ _ => rfl),
    struct_elem (F := X.mlModelCardEnvironmentalConsiderationsFields) (toP := MLModelCardEnvironmentalConsiderations.toP) (ofP := MLModelCardEnvironmentalConsiderations.ofP) (.elem .here) (fun _ => rfl) hN he ht (fun _ => rfl) (fun _ _ => rfl)⟩

/-- cyclonedx.go:1087-1090 -/
theorem xml_elements_mlModelCardEthicalConsideration :
    Element X.mlModelCardEthicalConsideration [] ["name", "mitigationStrategy"] (fun (x : MLModelCardEthicalConsideration) _ => x) ∧
    ElemField X.mlModelCardEthicalConsideration (fun (x : MLModelCardEthicalConsideration) _ => x) (.plain "name" true X.string) (fun x => x.name)
      (fun (x : MLModelCardEthicalConsideration) v => { x with name := v }) ∧
    ElemField X.mlModelCardEthicalConsideration (fun (x : MLModelCardEthicalConsideration) _ => x) (.plain "mitigationStrategy" true X.string) (fun x => x.mitigationStrategy)
      (fun (x : MLModelCardEthicalConsideration) v => { x with mitigationStrategy := v }) := by
  have hN : XFields.Named X.mlModelCardEthicalConsiderationFields := by
    have : XNames X.mlModelCardEthicalConsiderationFields := by unfold X.mlModelCardEthicalConsiderationFields; infer_instance
    exact this.named
  have ha : XFields.attrNames X.mlModelCardEthicalConsiderationFields |>.Nodup := show ([] : List String).Nodup by decide +kernel
  have he : XFields.elemNames X.mlModelCardEthicalConsiderationFields |>.Nodup := show (["name", "mitigationStrategy"] : List String).Nodup by decide +kernel
  have ht : ∀ x s, (fun (x : MLModelCardEthicalConsideration) _ => x) x s = MLModelCardEthicalConsideration.ofP (XFields.setText X.mlModelCardEthicalConsiderationFields s (MLModelCardEthicalConsideration.toP x)) := (fun _ _ => rfl)
  exact ⟨struct_element (F := X.mlModelCardEthicalConsiderationFields) (toP := MLModelCardEthicalConsideration.toP) (ofP := MLModelCardEthicalConsideration.ofP) (fun _ => rfl) hN ht _ _ rfl rfl,
    struct_elem (F := X.mlModelCardEthicalConsiderationFields) (toP := MLModelCardEthicalConsideration.toP) (ofP := MLModelCardEthicalConsideration.ofP) .here (fun _ => rfl) hN he ht (fun _ => rfl) (fun _ _ => rfl),
    struct_elem (F := X.mlModelCardEthicalConsiderationFields) (toP := MLModelCardEthicalConsideration.toP) (ofP := MLModelCardEthicalConsideration.ofP) (.elem .here) (fun _ => rfl) hN he ht (fun _ => rfl) (fun _ _ => rfl)⟩

/-- cyclonedx.go:1092-1097 -/
theorem xml_elements_mlModelCardFairnessAssessment :
    Element X.mlModelCardFairnessAssessment [] ["groupAtRisk", "benefits", "harms", "mitigationStrategy"] (fun (x : MLModelCardFairnessAssessment) _ => x) ∧
    ElemField X.mlModelCardFairnessAssessment (fun (x : MLModelCardFairnessAssessment) _ => x) (.plain "groupAtRisk" true X.string) (fun x => x.groupAtRisk)
      (fun (x : MLModelCardFairnessAssessment) v => { x with groupAtRisk := v }) ∧
    ElemField X.mlModelCardFairnessAssessment (fun (x : MLModelCardFairnessAssessment) _ => x) (.plain "benefits" true X.string) (fun x => x.benefits)
      (fun (x : MLModelCardFairnessAssessment) v => { x with benefits := v }) ∧
    ElemField X.mlModelCardFairnessAssessment (fun (x : MLModelCardFairnessAssessment) _ => x) (.plain "harms" true X.string) (fun x => x.harms)
      (fun (x : MLModelCardFairnessAssessment) v => { x with harms := v }) ∧
    ElemField X.mlModelCardFairnessAssessment (fun (x : MLModelCardFairnessAssessment) _ => x) (.plain "mitigationStrategy" true X.string) (fun x => x.mitigationStrategy)
      (fun (x : MLModelCardFairnessAssessment) v => { x with mitigationStrategy := v }) := by
  have hN : XFields.Named X.mlModelCardFairnessAssessmentFields := by
    have : XNames X.mlModelCardFairnessAssessmentFields := by unfold X.mlModelCardFairnessAssessmentFields; infer_instance
    exact this.named
  have ha : XFields.attrNames X.mlModelCardFairnessAssessmentFields |>.Nodup := show ([] : List String).Nodup by decide +kernel
  have he : XFields.elemNames X.mlModelCardFairnessAssessmentFields |>.Nodup := show (["groupAtRisk", "benefits", "harms", "mitigationStrategy"] : List String).Nodup by decide +kernel
  have ht : ∀ x s, (fun (x : MLModelCardFairnessAssessment) _ => x) x s = MLModelCardFairnessAssessment.ofP (XFields.setText X.mlModelCardFairnessAssessmentFields s (MLModelCardFairnessAssessment.toP x)) := (fun _ _ => rfl)
  exact ⟨struct_element (F := X.mlModelCardFairnessAssessmentFields) (toP := MLModelCardFairnessAssessment.toP) (ofP := MLModelCardFairnessAssessment.ofP) (fun _ => rfl) hN ht _ _ rfl rfl,
    struct_elem (F := X.mlModelCardFairnessAssessmentFields) (toP := MLModelCardFairnessAssessment.toP) (ofP := MLModelCardFairnessAssessment.ofP) .here (fun _ => rfl) hN he ht (fun _ => rfl) (fun _ _ => rfl),
    struct_elem (F := X.mlModelCardFairnessAssessmentFields) (toP := MLModelCardFairnessAssessment.toP) (ofP := MLModelCardFairnessAssessment.ofP) (.elem .here) (fun _ => rfl) hN he ht (fun _ => rfl) (fun _ _ => rfl),
    struct_elem (F := X.mlModelCardFairnessAssessmentFields) (toP := MLModelCardFairnessAssessment.toP) (ofP := MLModelCardFairnessAssessment.ofP) (.elem (.elem .here)) (fun _ => rfl) hN he ht (fun _ => rfl) (fun _ _ => rfl),
    struct_elem (F := X.mlModelCardFairnessAssessmentFields) (toP := MLModelCardFairnessAssessment.toP) (ofP := MLModelCardFairnessAssessment.ofP) (.elem (.elem (.elem .here))) (fun _ => rfl) hN he ht (fun _ => rfl) (fun _ _ => rfl)⟩

/-- cyclonedx.go:1072-1080 -/
theorem xml_elements_mlModelCardConsiderations :
    Element X.mlModelCardConsiderations [] ["users", "useCases", "technicalLimitations", "performanceTradeoffs", "ethicalConsiderations", "environmentalConsiderations", "fairnessAssessments"] (fun (x : MLModelCardConsiderations) _ => x) ∧
    ElemField X.mlModelCardConsiderations (fun (x : MLModelCardConsiderations) _ => x) (.nlist "users" "user" true X.string) (fun x => x.users)
      (fun (x : MLModelCardConsiderations) v => { x with users := v }) ∧
    ElemField X.mlModelCardConsiderations (fun (x : MLModelCardConsiderations) _ => x) (.nlist "useCases" "useCase" true X.string) (fun x => x.useCases)
      (fun (x : MLModelCardConsiderations) v => { x with useCases := v }) ∧
    ElemField X.mlModelCardConsiderations (fun (x : MLModelCardConsiderations) _ => x) (.nlist "technicalLimitations" "technicalLimitation" true X.string) (fun x => x.technicalLimitations)
      (fun (x : MLModelCardConsiderations) v => { x with technicalLimitations := v }) ∧
    ElemField X.mlModelCardConsiderations (fun (x : MLModelCardConsiderations) _ => x) (.nlist "performanceTradeoffs" "performanceTradeoff" true X.string) (fun x => x.performanceTradeoffs)
      (fun (x : MLModelCardConsiderations) v => { x with performanceTradeoffs := v }) ∧
    ElemField X.mlModelCardConsiderations (fun (x : MLModelCardConsiderations) _ => x) (.nlist "ethicalConsiderations" "ethicalConsideration" true X.mlModelCardEthicalConsideration) (fun x => x.ethicalConsiderations)
      (fun (x : MLModelCardConsiderations) v => { x with ethicalConsiderations := v }) ∧
    ElemField X.mlModelCardConsiderations (fun (x : MLModelCardConsiderations) _ => x) (.ptr "environmentalConsiderations" X.mlModelCardEnvironmentalConsiderations) (fun x => x.environmentalConsiderations)
      (fun (x : MLModelCardConsiderations) v => { x with environmentalConsiderations := v }) ∧
    ElemField X.mlModelCardConsiderations (fun (x : MLModelCardConsiderations) _ => x) (.nlist "fairnessAssessments" "fairnessAssessment" true X.mlModelCardFairnessAssessment) (fun x => x.fairnessAssessments)
      (fun (x : MLModelCardConsiderations) v => { x with fairnessAssessments := v }) := by
  have hN : XFields.Named X.mlModelCardConsiderationsFields := by
    have : XNames X.mlModelCardConsiderationsFields := by unfold X.mlModelCardConsiderationsFields; infer_instance
    exact this.named
  have ha : XFields.attrNames X.mlModelCardConsiderationsFields |>.Nodup := show ([] : List String).Nodup by decide +kernel
  have he : XFields.elemNames X.mlModelCardConsiderationsFields |>.Nodup := show (["users", "useCases", "technicalLimitations", "performanceTradeoffs", "ethicalConsiderations", "environmentalConsiderations", "fairnessAssessments"] : List String).Nodup by decide +kernel
  have ht : ∀ x s, (fun (x : MLModelCardConsiderations) _ => x) x s = MLModelCardConsiderations.ofP (XFields.setText X.mlModelCardConsiderationsFields s (MLModelCardConsiderations.toP x)) := (fun _ _ => rfl)
  exact ⟨struct_element (F := X.mlModelCardConsiderationsFields) (toP := MLModelCardConsiderations.toP) (ofP := MLModelCardConsiderations.ofP) (fun _ => rfl) hN ht _ _ rfl rfl,
    struct_elem (F := X.mlModelCardConsiderationsFields) (toP := MLModelCardConsiderations.toP) (ofP := MLModelCardConsiderations.ofP) .here (fun _ => rfl) hN he ht (fun _ => rfl) (fun _ _ => rfl),
    struct_elem (F := X.mlModelCardConsiderationsFields) (toP := MLModelCardConsiderations.toP) (ofP := MLModelCardConsiderations.ofP) (.elem .here) (fun _ => rfl) hN he ht (fun _ => rfl) (fun _ _ => rfl),
    struct_elem (F := X.mlModelCardConsiderationsFields) (toP := MLModelCardConsiderations.toP) (ofP := MLModelCardConsiderations.ofP) (.elem (.elem .here)) (fun _ => rfl) hN he ht (fun _ => rfl) (fun _ _ => rfl),
    struct_elem (F := X.mlModelCardConsiderationsFields) (toP := MLModelCardConsiderations.toP) (ofP := MLModelCardConsiderations.ofP) (.elem (.elem (.elem .here))) (fun _ => rfl) hN he ht (fun _ => rfl) (fun _ _ => rfl),
    struct_elem (F := X.mlModelCardConsiderationsFields) (toP := MLModelCardConsiderations.toP) (ofP := MLModelCardConsiderations.ofP) (.elem (.elem (.elem (.elem .here)))) (fun _ => rfl) hN he ht (fun _ => rfl) (fun _ _ => rfl),
    struct_elem (F := X.mlModelCardConsiderationsFields) (toP := MLModelCardConsiderations.toP) (ofP := MLModelCardConsiderations.ofP) (.elem (.elem (.elem (.elem (.elem .here))))) (fun _ => rfl) hN he ht (fun _ => rfl) (fun _ _ => rfl),
    struct_elem (F := X.mlModelCardConsiderationsFields) (toP := MLModelCardConsiderations.toP) (ofP := MLModelCardConsiderations.ofP) (.elem (.elem (.elem (.elem (.elem (.elem .here)))))) (fun _ => rfl) hN he ht (fun _ => rfl) (fun _ _ => rfl)⟩

/-- cyclonedx.go:1061-1063 -/
theorem xml_elements_mlInputOutputParameters :
    Element X.mlInputOutputParameters [] ["format"] (fun (x : MLInputOutputParameters) _ => x) ∧
    ElemField X.mlInputOutputParameters (fun (x : MLInputOutputParameters) _ => x) (.plain "format" true X.string) (fun x => x.format)
      (fun (x : MLInputOutputParameters) v => { x with format := v }) := by
  have hN : XFields.Named X.mlInputOutputParametersFields := by
    have : XNames X.mlInputOutputParametersFields := by unfold X.mlInputOutputParametersFields; infer_instance
    exact this.named
  have ha : XFields.attrNames X.mlInputOutputParametersFields |>.Nodup := show ([] : List String).Nodup by decide +kernel
  have he : XFields.elemNames X.mlInputOutputParametersFields |>.Nodup := show (["format"] : List String).Nodup by decide +kernel
  have ht : ∀ x s, (fun (x : MLInputOutputParameters) _ => x) x s = MLInputOutputParameters.ofP (XFields.setText X.mlInputOutputParametersFields s (MLInputOutputParameters.toP x)) := (fun _ _ => rfl)
  exact ⟨struct_element (F := X.mlInputOutputParametersFields) (toP := MLInputOutputParameters.toP) (ofP := MLInputOutputParameters.ofP) (fun _ => rfl) hN ht _ _ rfl rfl,
    struct_elem (F := X.mlInputOutputParametersFields) (toP := MLInputOutputParameters.toP) (ofP := MLInputOutputParameters.ofP) .here (fun _ => rfl) hN he ht (fun _ => rfl) (fun _ _ => rfl)⟩

/-- cyclonedx.go:1175-1177 -/
theorem xml_elements_mlModelParametersApproach :
    Element X.mlModelParametersApproach [] ["type"] (fun (x : MLModelParametersApproach) _ => x) ∧
    ElemField X.mlModelParametersApproach (fun (x : MLModelParametersApproach) _ => x) (.plain "type" true X.string) (fun x => x.type)
      (fun (x : MLModelParametersApproach) v => { x with type := v }) := by
  have hN : XFields.Named X.mlModelParametersApproachFields := by
    have : XNames X.mlModelParametersApproachFields := by unfold X.mlModelParametersApproachFields; infer_instance
    exact this.named
  have ha : XFields.attrNames X.mlModelParametersApproachFields |>.Nodup := show ([] : List String).Nodup by decide +kernel
  have he : XFields.elemNames X.mlModelParametersApproachFields |>.Nodup := show (["type"] : List String).Nodup by decide +kernel
  have ht : ∀ x s, (fun (x : MLModelParametersApproach) _ => x) x s = MLModelParametersApproach.ofP (XFields.setText X.mlModelParametersApproachFields s (MLModelParametersApproach.toP x)) := (fun _ _ => rfl)
  exact ⟨struct_element (F := X.mlModelParametersApproachFields) (toP := MLModelParametersApproach.toP) (ofP := MLModelParametersApproach.ofP) (fun _ => rfl) hN ht _ _ rfl rfl,
    struct_elem (F := X.mlModelParametersApproachFields) (toP := MLModelParametersApproach.toP) (ofP := MLModelParametersApproach.ofP) .here (fun _ => rfl) hN he ht (fun _ => rfl) (fun _ _ => rfl)⟩

/-- cyclonedx.go:1165-1173 -/
theorem xml_elements_mlModelParameters :
    Element X.mlModelParameters [] ["approach", "task", "architectureFamily", "modelArchitecture", "datasets", "inputs", "outputs"] (fun (x : MLModelParameters) _ => x) ∧
    ElemField X.mlModelParameters (fun (x : MLModelParameters) _ => x) (.ptr "approach" X.mlModelParametersApproach) (fun x => x.approach)
      (fun (x : MLModelParameters) v => { x with approach := v }) ∧
    ElemField X.mlModelParameters (fun (x : MLModelParameters) _ => x) (.plain "task" true X.string) (fun x => x.task)
      (fun (x : MLModelParameters) v => { x with task := v }) ∧
    ElemField X.mlModelParameters (fun (x : MLModelParameters) _ => x) (.plain "architectureFamily" true X.string) (fun x => x.architectureFamily)
      (fun (x : MLModelParameters) v => { x with architectureFamily := v }) ∧
    ElemField X.mlModelParameters (fun (x : MLModelParameters) _ => x) (.plain "modelArchitecture" true X.string) (fun x => x.modelArchitecture)
      (fun (x : MLModelParameters) v => { x with modelArchitecture := v }) ∧
    ElemField X.mlModelParameters (fun (x : MLModelParameters) _ => x) (.nlist "datasets" "dataset" true X.mlDatasetChoice) (fun x => x.datasets)
      (fun (x : MLModelParameters) v => { x with datasets := v }) ∧
    ElemField X.mlModelParameters (fun (x : MLModelParameters) _ => x) (.nlist "inputs" "input" true X.mlInputOutputParameters) (fun x => x.inputs)
      (fun (x : MLModelParameters) v => { x with inputs := v }) ∧
    ElemField X.mlModelParameters (fun (x : MLModelParameters) _ => x) (.nlist "outputs" "output" true X.mlInputOutputParameters) (fun x => x.outputs)
      (fun (x : MLModelParameters) v => { x with outputs := v }) := by
  have hN : XFields.Named X.mlModelParametersFields := by
    have : XNames X.mlModelParametersFields := by unfold X.mlModelParametersFields; infer_instance
    exact this.named
  have ha : XFields.attrNames X.mlModelParametersFields |>.Nodup := show ([] : List String).Nodup by decide +kernel
  have he : XFields.elemNames X.mlModelParametersFields |>.Nodup := show (["approach", "task", "architectureFamily", "modelArchitecture", "datasets", "inputs", "outputs"] : List String).Nodup by decide +kernel
  have ht : ∀ x s, (fun (x : MLModelParameters) _ => x) x s = MLModelParameters.ofP (XFields.setText X.mlModelParametersFields s (MLModelParameters.toP x)) := (fun _ _ => rfl)
  exact ⟨struct_element (F := X.mlModelParametersFields) (toP := MLModelParameters.toP) (ofP := MLModelParameters.ofP) (fun _ => rfl) hN ht _ _ rfl rfl,
    struct_elem (F := X.mlModelParametersFields) (toP := MLModelParameters.toP) (ofP := MLModelParameters.ofP) .here (fun _ => rfl) hN he ht (fun _ => rfl) (fun _ _ => rfl),
    struct_elem (F := X.mlModelParametersFields) (toP := MLModelParameters.toP) (ofP := MLModelParameters.ofP) (.elem .here) (fun _ => rfl) hN he ht (fun _ => rfl) (fun _ _ => rfl),
    struct_elem (F := X.mlModelParametersFields) (toP := MLModelParameters.toP) (ofP := MLModelParameters.ofP) (.elem (.elem .here)) (fun _ => rfl) hN he ht (fun _ => rfl) (fun _ _ => rfl),
    struct_elem (F := X.mlModelParametersFields) (toP := MLModelParameters.toP) (ofP := MLModelParameters.ofP) (.elem (.elem (.elem .here))) (fun _ => rfl) hN he ht (fun _ => rfl) (fun _ _ => rfl),
    struct_elem (F := X.mlModelParametersFields) (toP := MLModelParameters.toP) (ofP := MLModelParameters.ofP) (.elem (.elem (.elem (.elem .here)))) (fun _ => rfl) hN he ht (fun _ => rfl) (fun _ _ => rfl),
    struct_elem (F := X.mlModelParametersFields) (toP := MLModelParameters.toP) (ofP := MLModelParameters.ofP) (.elem (.elem (.elem (.elem (.elem .here))))) (fun _ => rfl) hN he ht (fun _ => rfl) (fun _ _ => rfl),
    struct_elem (F := X.mlModelParametersFields) (toP := MLModelParameters.toP) (ofP := MLModelParameters.ofP) (.elem (.elem (.elem (.elem (.elem (.elem .here)))))) (fun _ => rfl) hN he ht (fun _ => rfl) (fun _ _ => rfl)⟩

/-- cyclonedx.go:1201-1204 -/
theorem xml_elements_mlPerformanceMetricConfidenceInterval :
    Element X.mlPerformanceMetricConfidenceInterval [] ["lowerBound", "upperBound"] (fun (x : MLPerformanceMetricConfidenceInterval) _ => x) ∧
    ElemField X.mlPerformanceMetricConfidenceInterval (fun (x : MLPerformanceMetricConfidenceInterval) _ => x) (.plain "lowerBound" true X.string) (fun x => x.lowerBound)
      (fun (x : MLPerformanceMetricConfidenceInterval) v => { x with lowerBound := v }) ∧
    ElemField X.mlPerformanceMetricConfidenceInterval (fun (x : MLPerformanceMetricConfidenceInterval) _ => x) (.plain "upperBound" true X.string) (fun x => x.upperBound)
      (fun (x : MLPerformanceMetricConfidenceInterval) v => { x with upperBound := v }) := by
  have hN : XFields.Named X.mlPerformanceMetricConfidenceIntervalFields := by
    have : XNames X.mlPerformanceMetricConfidenceIntervalFields := by unfold X.mlPerformanceMetricConfidenceIntervalFields; infer_instance
    exact this.named
  have ha : XFields.attrNames X.mlPerformanceMetricConfidenceIntervalFields |>.Nodup := show ([] : List String).Nodup by decide +kernel
  have he : XFields.elemNames X.mlPerformanceMetricConfidenceIntervalFields |>.Nodup := show (["lowerBound", "upperBound"] : List String).Nodup by decide +kernel
  have ht : ∀ x s, (fun (x : MLPerformanceMetricConfidenceInterval) _ => x) x s = MLPerformanceMetricConfidenceInterval.ofP (XFields.setText X.mlPerformanceMetricConfidenceIntervalFields s (MLPerformanceMetricConfidenceInterval.toP x)) := (fun _ _ => rfl)
  exact ⟨struct_element (F := X.mlPerformanceMetricConfidenceIntervalFields) (toP := MLPerformanceMetricConfidenceInterval.toP) (ofP := MLPerformanceMetricConfidenceInterval.ofP) (fun _ => rfl) hN ht _ _ rfl rfl,
    struct_elem (F := X.mlPerformanceMetricConfidenceIntervalFields) (toP := MLPerformanceMetricConfidenceInterval.toP) (ofP := MLPerformanceMetricConfidenceInterval.ofP) .here (fun _ => rfl) hN he ht (fun _ => rfl) (fun _ _ => rfl),
    struct_elem (F := X.mlPerformanceMetricConfidenceIntervalFields) (toP := MLPerformanceMetricConfidenceInterval.toP) (ofP := MLPerformanceMetricConfidenceInterval.ofP) (.elem .here) (fun _ => rfl) hN he ht (fun _ => rfl) (fun _ _ => rfl)⟩

/-- cyclonedx.go:1194-1199 -/
theorem xml_elements_mlPerformanceMetric :
    Element X.mlPerformanceMetric [] ["type", "value", "slice", "confidenceInterval"] (fun (x : MLPerformanceMetric) _ => x) ∧
    ElemField X.mlPerformanceMetric (fun (x : MLPerformanceMetric) _ => x) (.plain "type" true X.string) (fun x => x.type)
      (fun (x : MLPerformanceMetric) v => { x with type := v }) ∧
    ElemField X.mlPerformanceMetric (fun (x : MLPerformanceMetric) _ => x) (.plain "value" true X.string) (fun x => x.value)
      (fun (x : MLPerformanceMetric) v => { x with value := v }) ∧
    ElemField X.mlPerformanceMetric (fun (x : MLPerformanceMetric) _ => x) (.plain "slice" true X.string) (fun x => x.slice)
      (fun (x : MLPerformanceMetric) v => { x with slice := v }) ∧
    ElemField X.mlPerformanceMetric (fun (x : MLPerformanceMetric) _ => x) (.ptr "confidenceInterval" X.mlPerformanceMetricConfidenceInterval) (fun x => x.confidenceInterval)
      (fun (x : MLPerformanceMetric) v => { x with confidenceInterval := v }) := by
  have hN : XFields.Named X.mlPerformanceMetricFields := by
    have : XNames X.mlPerformanceMetricFields := by unfold X.mlPerformanceMetricFields; infer_instance
    exact this.named
  have ha : XFields.attrNames X.mlPerformanceMetricFields |>.Nodup := show ([] : List String).Nodup by decide +kernel
  have he : XFields.elemNames X.mlPerformanceMetricFields |>.Nodup := show (["type", "value", "slice", "confidenceInterval"] : List String).Nodup by decide +kernel
  have ht : ∀ x s, (fun (x : MLPerformanceMetric) _ => x) x s = MLPerformanceMetric.ofP (XFields.setText X.mlPerformanceMetricFields s (MLPerformanceMetric.toP x)) := (fun _ _ => rfl)
  exact ⟨struct_element (F := X.mlPerformanceMetricFields) (toP := MLPerformanceMetric.toP) (ofP := MLPerformanceMetric.ofP) (fun _ => rfl) hN ht _ _ rfl rfl,
    struct_elem (F := X.mlPerformanceMetricFields) (toP := MLPerformanceMetric.toP) (ofP := MLPerformanceMetric.ofP) .here (fun _ => rfl) hN he ht (fun _ => rfl) (fun _ _ => rfl),
    struct_elem (F := X.mlPerformanceMetricFields) (toP := MLPerformanceMetric.toP) (ofP := MLPerformanceMetric.ofP) (.elem .here) (fun _ => rfl) hN he ht (fun _ => rfl) (fun _ _ => rfl),
    struct_elem (F := X.mlPerformanceMetricFields) (toP := MLPerformanceMetric.toP) (ofP := MLPerformanceMetric.ofP) (.elem (.elem .here)) (fun _ => rfl) hN he ht (fun _ => rfl) (fun _ _ => rfl),
    struct_elem (F := X.mlPerformanceMetricFields) (toP := MLPerformanceMetric.toP) (ofP := MLPerformanceMetric.ofP) (.elem (.elem (.elem .here))) (fun _ => rfl) hN he ht (fun _ => rfl) (fun _ _ => rfl)⟩

/-- cyclonedx.go:1189-1192 -/
theorem xml_elements_mlQuantitativeAnalysis :
    Element X.mlQuantitativeAnalysis [] ["performanceMetrics", "graphics"] (fun (x : MLQuantitativeAnalysis) _ => x) ∧
    ElemField X.mlQuantitativeAnalysis (fun (x : MLQuantitativeAnalysis) _ => x) (.nlist "performanceMetrics" "performanceMetric" true X.mlPerformanceMetric) (fun x => x.performanceMetrics)
      (fun (x : MLQuantitativeAnalysis) v => { x with performanceMetrics := v }) ∧
    ElemField X.mlQuantitativeAnalysis (fun (x : MLQuantitativeAnalysis) _ => x) (.ptr "graphics" X.componentDataGraphics) (fun x => x.graphics)
      (fun (x : MLQuantitativeAnalysis) v => { x with graphics := v }) := by
  have hN : XFields.Named X.mlQuantitativeAnalysisFields := by
    have : XNames X.mlQuantitativeAnalysisFields := by unfold X.mlQuantitativeAnalysisFields; infer_instance
    exact this.named
  have ha : XFields.attrNames X.mlQuantitativeAnalysisFields |>.Nodup := show ([] : List String).Nodup by decide +kernel
  have he : XFields.elemNames X.mlQuantitativeAnalysisFields |>.Nodup := show (["performanceMetrics", "graphics"] : List String).Nodup by decide +kernel
  have ht : ∀ x s, (fun (x : MLQuantitativeAnalysis) _ => x) x s = MLQuantitativeAnalysis.ofP (XFields.setText X.mlQuantitativeAnalysisFields s (MLQuantitativeAnalysis.toP x)) := (fun _ _ => rfl)
  exact ⟨struct_element (F := X.mlQuantitativeAnalysisFields) (toP := MLQuantitativeAnalysis.toP) (ofP := MLQuantitativeAnalysis.ofP) (fun _ => rfl) hN ht _ _ rfl rfl,
    struct_elem (F := X.mlQuantitativeAnalysisFields) (toP := MLQuantitativeAnalysis.toP) (ofP := MLQuantitativeAnalysis.ofP) .here (fun _ => rfl) hN he ht (fun _ => rfl) (fun _ _ => rfl),
    struct_elem (F := X.mlQuantitativeAnalysisFields) (toP := MLQuantitativeAnalysis.toP) (ofP := MLQuantitativeAnalysis.ofP) (.elem .here) (fun _ => rfl) hN he ht (fun _ => rfl) (fun _ _ => rfl)⟩

/-- cyclonedx.go:1065-1070 -/
theorem xml_elements_mlModelCard :
    Element X.mlModelCard ["bom-ref"] ["modelParameters", "quantitativeAnalysis", "considerations"] (fun (x : MLModelCard) _ => x) ∧
    AttrField X.mlModelCard (fun (x : MLModelCard) _ => x) "bom-ref" false XText.string (fun x => x.bomRef)
      (fun (x : MLModelCard) v => { x with bomRef := v }) ∧
    ElemField X.mlModelCard (fun (x : MLModelCard) _ => x) (.ptr "modelParameters" X.mlModelParameters) (fun x => x.modelParameters)
      (fun (x : MLModelCard) v => { x with modelParameters := v }) ∧
    ElemField X.mlModelCard (fun (x : MLModelCard) _ => x) (.ptr "quantitativeAnalysis" X.mlQuantitativeAnalysis) (fun x => x.quantitativeAnalysis)
      (fun (x : MLModelCard) v => { x with quantitativeAnalysis := v }) ∧
    ElemField X.mlModelCard (fun (x : MLModelCard) _ => x) (.ptr "considerations" X.mlModelCardConsiderations) (fun x => x.considerations)
      (fun (x : MLModelCard) v => { x with considerations := v }) := by
  have hN : XFields.Named X.mlModelCardFields := by
    have : XNames X.mlModelCardFields := by unfold X.mlModelCardFields; infer_instance
    exact this.named
  have ha : XFields.attrNames X.mlModelCardFields |>.Nodup := show (["bom-ref"] : List String).Nodup by decide +kernel
  have he : XFields.elemNames X.mlModelCardFields |>.Nodup := show (["modelParameters", "quantitativeAnalysis", "considerations"] : List String).Nodup by decide +kernel
  have ht : ∀ x s, (fun (x : MLModelCard) _ => x) x s = MLModelCard.ofP (XFields.setText X.mlModelCardFields s (MLModelCard.toP x)) := (fun _ _ => rfl)
  exact ⟨struct_element (F := X.mlModelCardFields) (toP := MLModelCard.toP) (ofP := MLModelCard.ofP) (fun _ => rfl) hN ht _ _ rfl rfl,
    struct_attr (F := X.mlModelCardFields) (toP := MLModelCard.toP) (ofP := MLModelCard.ofP) .here (fun _ => rfl) ha ht (fun _ => rfl) (fun _ _ => rfl),
    struct_elem (F := X.mlModelCardFields) (toP := MLModelCard.toP) (ofP := MLModelCard.ofP) (.attr .here) (fun _ => rfl) hN he ht (fun _ => rfl) (fun _ _ => rfl),
    struct_elem (F := X.mlModelCardFields) (toP := MLModelCard.toP) (ofP := MLModelCard.ofP) (.attr (.elem .here)) (fun _ => rfl) hN he ht (fun _ => rfl) (fun _ _ => rfl),
    struct_elem (F := X.mlModelCardFields) (toP := MLModelCard.toP) (ofP := MLModelCard.ofP) (.attr (.elem (.elem .here))) (fun _ => rfl) hN he ht (fun _ => rfl) (fun _ _ => rfl)⟩

/-- cyclonedx.go:832-836 -/
theorem xml_elements_identifiableAction :
    Element X.identifiableAction [] ["timestamp", "name", "email"] (fun (x : IdentifiableAction) _ => x) ∧
    ElemField X.identifiableAction (fun (x : IdentifiableAction) _ => x) (.plain "timestamp" true X.string) (fun x => x.timestamp)
      (fun (x : IdentifiableAction) v => { x with timestamp := v }) ∧
    ElemField X.identifiableAction (fun (x : IdentifiableAction) _ => x) (.plain "name" true X.string) (fun x => x.name)
      (fun (x : IdentifiableAction) v => { x with name := v }) ∧
    ElemField X.identifiableAction (fun (x : IdentifiableAction) _ => x) (.plain "email" true X.string) (fun x => x.email)
      (fun (x : IdentifiableAction) v => { x with email := v }) := by
  have hN : XFields.Named X.identifiableActionFields := by
    have : XNames X.identifiableActionFields := by unfold X.identifiableActionFields; infer_instance
    exact this.named
  have ha : XFields.attrNames X.identifiableActionFields |>.Nodup := show ([] : List String).Nodup by decide +kernel
  have he : XFields.elemNames X.identifiableActionFields |>.Nodup := show (["timestamp", "name", "email"] : List String).Nodup by decide +kernel
  have ht : ∀ x s, (fun (x : IdentifiableAction) _ => x) x s = IdentifiableAction.ofP (XFields.setText X.identifiableActionFields s (IdentifiableAction.toP x)) := (fun _ _ => rfl)
  exact ⟨struct_element (F := X.identifiableActionFields) (toP := IdentifiableAction.toP) (ofP := IdentifiableAction.ofP) (fun _ => rfl) hN ht _ _ rfl rfl,
    struct_elem (F := X.identifiableActionFields) (toP := IdentifiableAction.toP) (ofP := IdentifiableAction.ofP) .here (fun _ => rfl) hN he ht (fun _ => rfl) (fun _ _ => rfl),
    struct_elem (F := X.identifiableActionFields) (toP := IdentifiableAction.toP) (ofP := IdentifiableAction.ofP) (.elem .here) (fun _ => rfl) hN he ht (fun _ => rfl) (fun _ _ => rfl),
    struct_elem (F := X.identifiableActionFields) (toP := IdentifiableAction.toP) (ofP := IdentifiableAction.ofP) (.elem (.elem .here)) (fun _ => rfl) hN he ht (fun _ => rfl) (fun _ _ => rfl)⟩

/-- cyclonedx.go:231-237 -/
theorem xml_elements_commit :
    Element X.commit [] ["uid", "url", "author", "committer", "message"] (fun (x : Commit) _ => x) ∧
    ElemField X.commit (fun (x : Commit) _ => x) (.plain "uid" true X.string) (fun x => x.uid)
      (fun (x : Commit) v => { x with uid := v }) ∧
    ElemField X.commit (fun (x : Commit) _ => x) (.plain "url" true X.string) (fun x => x.url)
      (fun (x : Commit) v => { x with url := v }) ∧
    ElemField X.commit (fun (x : Commit) _ => x) (.ptr "author" X.identifiableAction) (fun x => x.author)
      (fun (x : Commit) v => { x with author := v }) ∧
    ElemField X.commit (fun (x : Commit) _ => x) (.ptr "committer" X.identifiableAction) (fun x => x.committer)
      (fun (x : Commit) v => { x with committer := v }) ∧
    ElemField X.commit (fun (x : Commit) _ => x) (.plain "message" true X.string) (fun x => x.message)
      (fun (x : Commit) v => { x with message := v }) := by
  have hN : XFields.Named X.commitFields := by
    have : XNames X.commitFields := by unfold X.commitFields; infer_instance
    exact this.named
  have ha : XFields.attrNames X.commitFields |>.Nodup := show ([] : List String).Nodup by decide +kernel
  have he : XFields.elemNames X.commitFields |>.Nodup := show (["uid", "url", "author", "committer", "message"] : List String).Nodup by decide +kernel
  have ht : ∀ x s, (fun (x : Commit) _ => x) x s = Commit.ofP (XFields.setText X.commitFields s (Commit.toP x)) := (fun _ _ => rfl)
  exact ⟨struct_element (F := X.commitFields) (toP := Commit.toP) (ofP := Commit.ofP) (fun _ => rfl) hN ht _ _ rfl rfl,
    struct_elem (F := X.commitFields) (toP := Commit.toP) (ofP := Commit.ofP) .here (fun _ => rfl) hN he ht (fun _ => rfl) (fun _ _ => rfl),
    struct_elem (F := X.commitFields) (toP := Commit.toP) (ofP := Commit.ofP) (.elem .here) (fun _ => rfl) hN he ht (fun _ => rfl) (fun _ _ => rfl),
    struct_elem (F := X.commitFields) (toP := Commit.toP) (ofP := Commit.ofP) (.elem (.elem .here)) (fun _ => rfl) hN he ht (fun _ => rfl) (fun _ _ => rfl),
    struct_elem (F := X.commitFields) (toP := Commit.toP) (ofP := Commit.ofP) (.elem (.elem (.elem .here))) (fun _ => rfl) hN he ht (fun _ => rfl) (fun _ _ => rfl),
    struct_elem (F := X.commitFields) (toP := Commit.toP) (ofP := Commit.ofP) (.elem (.elem (.elem (.elem .here)))) (fun _ => rfl) hN he ht (fun _ => rfl) (fun _ _ => rfl)⟩

/-- cyclonedx.go:650-653 -/
theorem xml_elements_diff :
    Element X.diff [] ["text", "url"] (fun (x : Diff) _ => x) ∧
    ElemField X.diff (fun (x : Diff) _ => x) (.ptr "text" X.attachedText) (fun x => x.text)
      (fun (x : Diff) v => { x with text := v }) ∧
    ElemField X.diff (fun (x : Diff) _ => x) (.plain "url" true X.string) (fun x => x.url)
      (fun (x : Diff) v => { x with url := v }) := by
  have hN : XFields.Named X.diffFields := by
    have : XNames X.diffFields := by unfold X.diffFields; infer_instance
    exact this.named
  have ha : XFields.attrNames X.diffFields |>.Nodup := show ([] : List String).Nodup by decide +kernel
  have he : XFields.elemNames X.diffFields |>.Nodup := show (["text", "url"] : List String).Nodup by decide +kernel
  have ht : ∀ x s, (fun (x : Diff) _ => x) x s = Diff.ofP (XFields.setText X.diffFields s (Diff.toP x)) := (fun _ _ => rfl)
  exact ⟨struct_element (F := X.diffFields) (toP := Diff.toP) (ofP := Diff.ofP) (fun _ => rfl) hN ht _ _ rfl rfl,
    struct_elem (F := X.diffFields) (toP := Diff.toP) (ofP := Diff.ofP) .here (fun _ => rfl) hN he ht (fun _ => rfl) (fun _ _ => rfl),
    struct_elem (F := X.diffFields) (toP := Diff.toP) (ofP := Diff.ofP) (.elem .here) (fun _ => rfl) hN he ht (fun _ => rfl) (fun _ _ => rfl)⟩

/-- cyclonedx.go:1398-1401 -/
theorem xml_elements_source :
    Element X.source [] ["name", "url"] (fun (x : Source) _ => x) ∧
    ElemField X.source (fun (x : Source) _ => x) (.plain "name" true X.string) (fun x => x.name)
      (fun (x : Source) v => { x with name := v }) ∧
    ElemField X.source (fun (x : Source) _ => x) (.plain "url" true X.string) (fun x => x.url)
      (fun (x : Source) v => { x with url := v }) := by
  have hN : XFields.Named X.sourceFields := by
    have : XNames X.sourceFields := by unfold X.sourceFields; infer_instance
    exact this.named
  have ha : XFields.attrNames X.sourceFields |>.Nodup := show ([] : List String).Nodup by decide +kernel
  have he : XFields.elemNames X.sourceFields |>.Nodup := show (["name", "url"] : List String).Nodup by decide +kernel
  have ht : ∀ x s, (fun (x : Source) _ => x) x s = Source.ofP (XFields.setText X.sourceFields s (Source.toP x)) := (fun _ _ => rfl)
  exact ⟨struct_element (F := X.sourceFields) (toP := Source.toP) (ofP := Source.ofP) (fun _ => rfl) hN ht _ _ rfl rfl,
    struct_elem (F := X.sourceFields) (toP := Source.toP) (ofP := Source.ofP) .here (fun _ => rfl) hN he ht (fun _ => rfl) (fun _ _ => rfl),
    struct_elem (F := X.sourceFields) (toP := Source.toP) (ofP := Source.ofP) (.elem .here) (fun _ => rfl) hN he ht (fun _ => rfl) (fun _ _ => rfl)⟩

/-- cyclonedx.go:892-899 -/
theorem xml_elements_issue :
    Element X.issue ["type"] ["id", "name", "description", "source", "references"] (fun (x : Issue) _ => x) ∧
    ElemField X.issue (fun (x : Issue) _ => x) (.plain "id" false X.string) (fun x => x.id)
      (fun (x : Issue) v => { x with id := v }) ∧
    ElemField X.issue (fun (x : Issue) _ => x) (.plain "name" true X.string) (fun x => x.name)
      (fun (x : Issue) v => { x with name := v }) ∧
    ElemField X.issue (fun (x : Issue) _ => x) (.plain "description" false X.string) (fun x => x.description)
      (fun (x : Issue) v => { x with description := v }) ∧
    ElemField X.issue (fun (x : Issue) _ => x) (.ptr "source" X.source) (fun x => x.source)
      (fun (x : Issue) v => { x with source := v }) ∧
    ElemField X.issue (fun (x : Issue) _ => x) (.nlist "references" "url" true X.string) (fun x => x.references)
      (fun (x : Issue) v => { x with references := v }) ∧
    AttrField X.issue (fun (x : Issue) _ => x) "type" true XText.string (fun x => x.type)
      (fun (x : Issue) v => { x with type := v }) := by
  have hN : XFields.Named X.issueFields := by
    have : XNames X.issueFields := by unfold X.issueFields; infer_instance
    exact this.named
  have ha : XFields.attrNames X.issueFields |>.Nodup := show (["type"] : List String).Nodup by decide +kernel
  have he : XFields.elemNames X.issueFields |>.Nodup := show (["id", "name", "description", "source", "references"] : List String).Nodup by decide +kernel
  have ht : ∀ x s, (fun (x : Issue) _ => x) x s = Issue.ofP (XFields.setText X.issueFields s (Issue.toP x)) := (fun _ _ => rfl)
  exact ⟨struct_element (F := X.issueFields) (toP := Issue.toP) (ofP := Issue.ofP) (fun _ => rfl) hN ht _ _ rfl rfl,
    struct_elem (F := X.issueFields) (toP := Issue.toP) (ofP := Issue.ofP) .here (fun _ => rfl) hN he ht (fun _ => rfl) (fun _ _ => rfl),
    struct_elem (F := X.issueFields) (toP := Issue.toP) (ofP := Issue.ofP) (.elem .here) (fun _ => rfl) hN he ht (fun _ => rfl) (fun _ _ => rfl),
    struct_elem (F := X.issueFields) (toP := Issue.toP) (ofP := Issue.ofP) (.elem (.elem .here)) (fun _ => rfl) hN he ht (fun _ => rfl) (fun _ _ => rfl),
    struct_elem (F := X.issueFields) (toP := Issue.toP) (ofP := Issue.ofP) (.elem (.elem (.elem .here))) (fun _ => rfl) hN he ht (fun _ => rfl) (fun _ _ => rfl),
    struct_elem (F := X.issueFields) (toP := Issue.toP) (ofP := Issue.ofP) (.elem (.elem (.elem (.elem .here)))) (fun _ => rfl) hN he ht (fun _ => rfl) (fun _ _ => rfl),
    struct_attr (F := X.issueFields) (toP := Issue.toP) (ofP := Issue.ofP) (.elem (.elem (.elem (.elem (.elem .here))))) (fun _ => rfl) ha ht (fun _ => rfl) (fun _ _ => rfl)⟩

/-- cyclonedx.go:1237-1241 -/
theorem xml_elements_patch :
    Element X.patch ["type"] ["diff", "resolves"] (fun (x : Patch) _ => x) ∧
    ElemField X.patch (fun (x : Patch) _ => x) (.ptr "diff" X.diff) (fun x => x.diff)
      (fun (x : Patch) v => { x with diff := v }) ∧
    ElemField X.patch (fun (x : Patch) _ => x) (.nlist "resolves" "issue" true X.issue) (fun x => x.resolves)
      (fun (x : Patch) v => { x with resolves := v }) ∧
    AttrField X.patch (fun (x : Patch) _ => x) "type" true XText.string (fun x => x.type)
      (fun (x : Patch) v => { x with type := v }) := by
  have hN : XFields.Named X.patchFields := by
    have : XNames X.patchFields := by unfold X.patchFields; infer_instance
    exact this.named
  have ha : XFields.attrNames X.patchFields |>.Nodup := show (["type"] : List String).Nodup by decide +kernel
  have he : XFields.elemNames X.patchFields |>.Nodup := show (["diff", "resolves"] : List String).Nodup by decide +kernel
  have ht : ∀ x s, (fun (x : Patch) _ => x) x s = Patch.ofP (XFields.setText X.patchFields s (Patch.toP x)) := (fun _ _ => rfl)
  exact ⟨struct_element (F := X.patchFields) (toP := Patch.toP) (ofP := Patch.ofP) (fun _ => rfl) hN ht _ _ rfl rfl,
    struct_elem (F := X.patchFields) (toP := Patch.toP) (ofP := Patch.ofP) .here (fun _ => rfl) hN he ht (fun _ => rfl) (fun _ _ => rfl),
    struct_elem (F := X.patchFields) (toP := Patch.toP) (ofP := Patch.ofP) (.elem .here) (fun _ => rfl) hN he ht (fun _ => rfl) (fun _ _ => rfl),
    struct_attr (F := X.patchFields) (toP := Patch.toP) (ofP := Patch.ofP) (.elem (.elem .here)) (fun _ => rfl) ha ht (fun _ => rfl) (fun _ _ => rfl)⟩

/-- cyclonedx.go:1252-1259 -/
theorem xml_elements_pedigree :
    Element (X.pedigree X.component) [] ["ancestors", "descendants", "variants", "commits", "patches", "notes"] (fun (x : Pedigree Component) _ => x) ∧
    ElemField (X.pedigree X.component) (fun (x : Pedigree Component) _ => x) (.nlist "ancestors" "component" true X.component) (fun x => x.ancestors)
      (fun (x : Pedigree Component) v => { x with ancestors := v }) ∧
    ElemField (X.pedigree X.component) (fun (x : Pedigree Component) _ => x) (.nlist "descendants" "component" true X.component) (fun x => x.descendants)
      (fun (x : Pedigree Component) v => { x with descendants := v }) ∧
    ElemField (X.pedigree X.component) (fun (x : Pedigree Component) _ => x) (.nlist "variants" "component" true X.component) (fun x => x.variants)
      (fun (x : Pedigree Component) v => { x with variants := v }) ∧
    ElemField (X.pedigree X.component) (fun (x : Pedigree Component) _ => x) (.nlist "commits" "commit" true X.commit) (fun x => x.commits)
      (fun (x : Pedigree Component) v => { x with commits := v }) ∧
    ElemField (X.pedigree X.component) (fun (x : Pedigree Component) _ => x) (.nlist "patches" "patch" true X.patch) (fun x => x.patches)
      (fun (x : Pedigree Component) v => { x with patches := v }) ∧
    ElemField (X.pedigree X.component) (fun (x : Pedigree Component) _ => x) (.plain "notes" true X.string) (fun x => x.notes)
      (fun (x : Pedigree Component) v => { x with notes := v }) := by
  have hN : XFields.Named (X.pedigreeFields X.component) := by
    have : XNames (X.pedigreeFields X.component) := by unfold X.pedigreeFields; infer_instance
    exact this.named
  have ha : XFields.attrNames (X.pedigreeFields X.component) |>.Nodup := show ([] : List String).Nodup by decide +kernel
  have he : XFields.elemNames (X.pedigreeFields X.component) |>.Nodup := show (["ancestors", "descendants", "variants", "commits", "patches", "notes"] : List String).Nodup by decide +kernel
  have ht : ∀ x s, (fun (x : Pedigree Component) _ => x) x s = Pedigree.ofP (XFields.setText (X.pedigreeFields X.component) s (Pedigree.toP x)) := (fun _ _ => rfl)
  exact ⟨struct_element (F := (X.pedigreeFields X.component)) (toP := Pedigree.toP) (ofP := Pedigree.ofP) (fun _ => rfl) hN ht _ _ rfl rfl,
    struct_elem (F := (X.pedigreeFields X.component)) (toP := Pedigree.toP) (ofP := Pedigree.ofP) .here (fun _ => rfl) hN he ht (fun _ => rfl) (fun _ _ => rfl),
    struct_elem (F := (X.pedigreeFields X.component)) (toP := Pedigree.toP) (ofP := Pedigree.ofP) (.elem .here) (fun _ => rfl) hN he ht (fun _ => rfl) (fun _ _ => rfl),
    struct_elem (F := (X.pedigreeFields X.component)) (toP := Pedigree.toP) (ofP := Pedigree.ofP) (.elem (.elem .here)) (fun _ => rfl) hN he ht (fun _ => rfl) (fun _ _ => rfl),
    struct_elem (F := (X.pedigreeFields X.component)) (toP := Pedigree.toP) (ofP := Pedigree.ofP) (.elem (.elem (.elem .here))) (fun _ => rfl) hN he ht (fun _ => rfl) (fun _ _ => rfl),
    struct_elem (F := (X.pedigreeFields X.component)) (toP := Pedigree.toP) (ofP := Pedigree.ofP) (.elem (.elem (.elem (.elem .here)))) (fun _ => rfl) hN he ht (fun _ => rfl) (fun _ _ => rfl),
    struct_elem (F := (X.pedigreeFields X.component)) (toP := Pedigree.toP) (ofP := Pedigree.ofP) (.elem (.elem (.elem (.elem (.elem .here))))) (fun _ => rfl) hN he ht (fun _ => rfl) (fun _ _ => rfl)⟩

/-- cyclonedx.go:1206-1209 -/
theorem xml_elements_note :
    Element X.note [] ["locale", "text"] (fun (x : Note) _ => x) ∧
    ElemField X.note (fun (x : Note) _ => x) (.plain "locale" true X.string) (fun x => x.locale)
      (fun (x : Note) v => { x with locale := v }) ∧
    ElemField X.note (fun (x : Note) _ => x) (.plain "text" false X.attachedText) (fun x => x.text)
      (fun (x : Note) v => { x with text := v }) := by
  have hN : XFields.Named X.noteFields := by
    have : XNames X.noteFields := by unfold X.noteFields; infer_instance
    exact this.named
  have ha : XFields.attrNames X.noteFields |>.Nodup := show ([] : List String).Nodup by decide +kernel
  have he : XFields.elemNames X.noteFields |>.Nodup := show (["locale", "text"] : List String).Nodup by decide +kernel
  have ht : ∀ x s, (fun (x : Note) _ => x) x s = Note.ofP (XFields.setText X.noteFields s (Note.toP x)) := (fun _ _ => rfl)
  exact ⟨struct_element (F := X.noteFields) (toP := Note.toP) (ofP := Note.ofP) (fun _ => rfl) hN ht _ _ rfl rfl,
    struct_elem (F := X.noteFields) (toP := Note.toP) (ofP := Note.ofP) .here (fun _ => rfl) hN he ht (fun _ => rfl) (fun _ _ => rfl),
    struct_elem (F := X.noteFields) (toP := Note.toP) (ofP := Note.ofP) (.elem .here) (fun _ => rfl) hN he ht (fun _ => rfl) (fun _ _ => rfl)⟩

/-- cyclonedx.go:1323-1335 -/
theorem xml_elements_releaseNotes :
    Element X.releaseNotes [] ["type", "title", "featuredImage", "socialImage", "description", "timestamp", "aliases", "tags", "resolves", "notes", "properties"] (fun (x : ReleaseNotes) _ => x) ∧
    ElemField X.releaseNotes (fun (x : ReleaseNotes) _ => x) (.plain "type" false X.string) (fun x => x.type)
      (fun (x : ReleaseNotes) v => { x with type := v }) ∧
    ElemField X.releaseNotes (fun (x : ReleaseNotes) _ => x) (.plain "title" true X.string) (fun x => x.title)
      (fun (x : ReleaseNotes) v => { x with title := v }) ∧
    ElemField X.releaseNotes (fun (x : ReleaseNotes) _ => x) (.plain "featuredImage" true X.string) (fun x => x.featuredImage)
      (fun (x : ReleaseNotes) v => { x with featuredImage := v }) ∧
    ElemField X.releaseNotes (fun (x : ReleaseNotes) _ => x) (.plain "socialImage" true X.string) (fun x => x.socialImage)
      (fun (x : ReleaseNotes) v => { x with socialImage := v }) ∧
    ElemField X.releaseNotes (fun (x : ReleaseNotes) _ => x) (.plain "description" true X.string) (fun x => x.description)
      (fun (x : ReleaseNotes) v => { x with description := v }) ∧
    ElemField X.releaseNotes (fun (x : ReleaseNotes) _ => x) (.plain "timestamp" true X.string) (fun x => x.timestamp)
      (fun (x : ReleaseNotes) v => { x with timestamp := v }) ∧
    ElemField X.releaseNotes (fun (x : ReleaseNotes) _ => x) (.nlist "aliases" "alias" true X.string) (fun x => x.aliases)
      (fun (x : ReleaseNotes) v => { x with aliases := v }) ∧
    ElemField X.releaseNotes (fun (x : ReleaseNotes) _ => x) (.nlist "tags" "tag" true X.string) (fun x => x.tags)
      (fun (x : ReleaseNotes) v => { x with tags := v }) ∧
    ElemField X.releaseNotes (fun (x : ReleaseNotes) _ => x) (.nlist "resolves" "issue" true X.issue) (fun x => x.resolves)
      (fun (x : ReleaseNotes) v => { x with resolves := v }) ∧
    ElemField X.releaseNotes (fun (x : ReleaseNotes) _ => x) (.nlist "notes" "note" true X.note) (fun x => x.notes)
      (fun (x : ReleaseNotes) v => { x with notes := v }) ∧
    ElemField X.releaseNotes (fun (x : ReleaseNotes) _ => x) (.nlist "properties" "property" true X.property) (fun x => x.properties)
      (fun (x : ReleaseNotes) v => { x with properties := v }) := by
  have hN : XFields.Named X.releaseNotesFields := by
    have : XNames X.releaseNotesFields := by unfold X.releaseNotesFields; infer_instance
    exact this.named
  have ha : XFields.attrNames X.releaseNotesFields |>.Nodup := show ([] : List String).Nodup by decide +kernel
  have he : XFields.elemNames X.releaseNotesFields |>.Nodup := show (["type", "title", "featuredImage", "socialImage", "description", "timestamp", "aliases", "tags", "resolves", "notes", "properties"] : List String).Nodup by decide +kernel
  have ht : ∀ x s, (fun (x : ReleaseNotes) _ => x) x s = ReleaseNotes.ofP (XFields.setText X.releaseNotesFields s (ReleaseNotes.toP x)) := (fun _ _ => rfl)
  exact ⟨struct_element (F := X.releaseNotesFields) (toP := ReleaseNotes.toP) (ofP := ReleaseNotes.ofP) (fun _ => rfl) hN ht _ _ rfl rfl,
    struct_elem (F := X.releaseNotesFields) (toP := ReleaseNotes.toP) (ofP := ReleaseNotes.ofP) .here (fun _ => rfl) hN he ht (fun _ => rfl) (fun _ _ => rfl),
    struct_elem (F := X.releaseNotesFields) (toP := ReleaseNotes.toP) (ofP := ReleaseNotes.ofP) (.elem .here) (fun _ => rfl) hN he ht (fun _ => rfl) (fun _ _ => rfl),
    struct_elem (F := X.releaseNotesFields) (toP := ReleaseNotes.toP) (ofP := ReleaseNotes.ofP) (.elem (.elem .here)) (fun _ => rfl) hN he ht (fun _ => rfl) (fun _ _ => rfl),
    struct_elem (F := X.releaseNotesFields) (toP := ReleaseNotes.toP) (ofP := ReleaseNotes.ofP) (.elem (.elem (.elem .here))) (fun _ => rfl) hN he ht (fun _ => rfl) (fun _ _ => rfl),
    struct_elem (F := X.releaseNotesFields) (toP := ReleaseNotes.toP) (ofP := ReleaseNotes.ofP) (.elem (.elem (.elem (.elem .here)))) (fun _ => rfl) hN he ht (fun _ => rfl) (fun _ _ => rfl),
    struct_elem (F := X.releaseNotesFields) (toP := ReleaseNotes.toP) (ofP := ReleaseNotes.ofP) (.elem (.elem (.elem (.elem (.elem .here))))) (fun _ => rfl) hN he ht (fun _ => rfl) (fun _ _ => rfl),
    struct_elem (F := X.releaseNotesFields) (toP := ReleaseNotes.toP) (ofP := ReleaseNotes.ofP) (.elem (.elem (.elem (.elem (.elem (.elem .here)))))) (fun _ => rfl) hN he ht (fun _ => rfl) (fun _ _ => rfl),
    struct_elem (F := X.releaseNotesFields) (toP := ReleaseNotes.toP) (ofP := ReleaseNotes.ofP) (.elem (.elem (.elem (.elem (.elem (.elem (.elem .here))))))) (fun _ => rfl) hN he ht (fun _ => rfl) (fun _ _ => rfl),
    struct_elem (F := X.releaseNotesFields) (toP := ReleaseNotes.toP) (ofP := ReleaseNotes.ofP) (.elem (.elem (.elem (.elem (.elem (.elem (.elem (.elem .here)))))))) (fun _ => rfl) hN he ht (fun _ => rfl) (fun _ _ => rfl),
    struct_elem (F := X.releaseNotesFields) (toP := ReleaseNotes.toP) (ofP := ReleaseNotes.ofP) (.elem (.elem (.elem (.elem (.elem (.elem (.elem (.elem (.elem .here))))))))) (fun _ => rfl) hN he ht (fun _ => rfl) (fun _ _ => rfl),
    struct_elem (F := X.releaseNotesFields) (toP := ReleaseNotes.toP) (ofP := ReleaseNotes.ofP) (.elem (.elem (.elem (.elem (.elem (.elem (.elem (.elem (.elem (.elem .here)))))))))) (fun _ => rfl) hN he ht (fun _ => rfl) (fun _ _ => rfl)⟩

/-- cyclonedx.go:1449-1457 -/
theorem xml_elements_swid :
    Element X.swid ["url", "tagId", "name", "version", "tagVersion", "patch"] ["text"] (fun (x : SWID) _ => x) ∧
    ElemField X.swid (fun (x : SWID) _ => x) (.ptr "text" X.attachedText) (fun x => x.text)
      (fun (x : SWID) v => { x with text := v }) ∧
    AttrField X.swid (fun (x : SWID) _ => x) "url" false XText.string (fun x => x.url)
      (fun (x : SWID) v => { x with url := v }) ∧
    AttrField X.swid (fun (x : SWID) _ => x) "tagId" true XText.string (fun x => x.tagID)
      (fun (x : SWID) v => { x with tagID := v }) ∧
    AttrField X.swid (fun (x : SWID) _ => x) "name" true XText.string (fun x => x.name)
      (fun (x : SWID) v => { x with name := v }) ∧
    AttrField X.swid (fun (x : SWID) _ => x) "version" false XText.string (fun x => x.version)
      (fun (x : SWID) v => { x with version := v }) ∧
    AttrPtrField X.swid (fun (x : SWID) _ => x) "tagVersion" XText.int (fun x => x.tagVersion)
      (fun (x : SWID) v => { x with tagVersion := v }) ∧
    AttrPtrField X.swid (fun (x : SWID) _ => x) "patch" XText.bool (fun x => x.patch)
      (fun (x : SWID) v => { x with patch := v }) := by
  have hN : XFields.Named X.swidFields := by
    have : XNames X.swidFields := by unfold X.swidFields; infer_instance
    exact this.named
  have ha : XFields.attrNames X.swidFields |>.Nodup := show (["url", "tagId", "name", "version", "tagVersion", "patch"] : List String).Nodup by decide +kernel
  have he : XFields.elemNames X.swidFields |>.Nodup := show (["text"] : List String).Nodup by decide +kernel
  have ht : ∀ x s, (fun (x : SWID) _ => x) x s = SWID.ofP (XFields.setText X.swidFields s (SWID.toP x)) := (fun _ _ => rfl)
  exact ⟨struct_element (F := X.swidFields) (toP := SWID.toP) (ofP := SWID.ofP) (fun _ => rfl) hN ht _ _ rfl rfl,
    struct_elem (F := X.swidFields) (toP := SWID.toP) (ofP := SWID.ofP) .here (fun _ => rfl) hN he ht (fun _ => rfl) (fun _ _ => rfl),
    struct_attr (F := X.swidFields) (toP := SWID.toP) (ofP := SWID.ofP) (.elem .here) (fun _ => rfl) ha ht (fun _ => rfl) (fun _ _ => rfl),
    struct_attr (F := X.swidFields) (toP := SWID.toP) (ofP := SWID.ofP) (.elem (.attr .here)) (fun _ => rfl) ha ht (fun _ => rfl) (fun _ _ => rfl),
    struct_attr (F := X.swidFields) (toP := SWID.toP) (ofP := SWID.ofP) (.elem (.attr (.attr .here))) (fun _ => rfl) ha ht (fun _ => rfl) (fun _ _ => rfl),
    struct_attr (F := X.swidFields) (toP := SWID.toP) (ofP := SWID.ofP) (.elem (.attr (.attr (.attr .here)))) (fun _ => rfl) ha ht (fun _ => rfl) (fun _ _ => rfl),
    struct_attrPtr (F := X.swidFields) (toP := SWID.toP) (ofP := SWID.ofP) (.elem (.attr (.attr (.attr (.attr .here))))) (fun _ => rfl) ha ht (fun _ => rfl) (fun _ _ => rfl),
    struct_attrPtr (F := X.swidFields) (toP := SWID.toP) (ofP := SWID.ofP) (.elem (.attr (.attr (.attr (.attr (.attrPtr .here)))))) (fun _ => rfl) ha ht (fun _ => rfl) (fun _ _ => rfl)⟩

/-- cyclonedx.go:1779-1785 -/
theorem xml_elements_patentAssertion :
    Element X.patentAssertion ["bom-ref"] ["patentRefs", "assertionType", "asserter", "notes"] (fun (x : PatentAssertion) _ => x) ∧
    AttrField X.patentAssertion (fun (x : PatentAssertion) _ => x) "bom-ref" false XText.string (fun x => x.bomRef)
      (fun (x : PatentAssertion) v => { x with bomRef := v }) ∧
    ElemField X.patentAssertion (fun (x : PatentAssertion) _ => x) (.nlist "patentRefs" "bom-ref" true X.bomReference) (fun x => x.patentRefs)
      (fun (x : PatentAssertion) v => { x with patentRefs := v }) ∧
    ElemField X.patentAssertion (fun (x : PatentAssertion) _ => x) (.plain "assertionType" false X.string) (fun x => x.assertionType)
      (fun (x : PatentAssertion) v => { x with assertionType := v }) ∧
    ElemField X.patentAssertion (fun (x : PatentAssertion) _ => x) (.ptr "asserter" X.asserterChoice) (fun x => x.asserter)
      (fun (x : PatentAssertion) v => { x with asserter := v }) ∧
    ElemField X.patentAssertion (fun (x : PatentAssertion) _ => x) (.plain "notes" true X.string) (fun x => x.notes)
      (fun (x : PatentAssertion) v => { x with notes := v }) := by
  have hN : XFields.Named X.patentAssertionFields := by
    have : XNames X.patentAssertionFields := by unfold X.patentAssertionFields; infer_instance
    exact this.named
  have ha : XFields.attrNames X.patentAssertionFields |>.Nodup := show (["bom-ref"] : List String).Nodup by decide +kernel
  have he : XFields.elemNames X.patentAssertionFields |>.Nodup := show (["patentRefs", "assertionType", "asserter", "notes"] : List String).Nodup by decide +kernel
  have ht : ∀ x s, (fun (x : PatentAssertion) _ => x) x s = PatentAssertion.ofP (XFields.setText X.patentAssertionFields s (PatentAssertion.toP x)) := (fun _ _ => rfl)
  exact ⟨struct_element (F := X.patentAssertionFields) (toP := PatentAssertion.toP) (ofP := PatentAssertion.ofP) (fun _ => rfl) hN ht _ _ rfl rfl,
    struct_attr (F := X.patentAssertionFields) (toP := PatentAssertion.toP) (ofP := PatentAssertion.ofP) .here (fun _ => rfl) ha ht (fun _ => rfl) (fun _ _ => rfl),
    struct_elem (F := X.patentAssertionFields) (toP := PatentAssertion.toP) (ofP := PatentAssertion.ofP) (.attr .here) (fun _ => rfl) hN he ht (fun _ => rfl) (fun _ _ => rfl),
    struct_elem (F := X.patentAssertionFields) (toP := PatentAssertion.toP) (ofP := PatentAssertion.ofP) (.attr (.elem .here)) (fun _ => rfl) hN he ht (fun _ => rfl) (fun _ _ => rfl),
    struct_elem (F := X.patentAssertionFields) (toP := PatentAssertion.toP) (ofP := PatentAssertion.ofP) (.attr (.elem (.elem .here))) (fun _ => rfl) hN he ht (fun _ => rfl) (fun _ _ => rfl),
    struct_elem (F := X.patentAssertionFields) (toP := PatentAssertion.toP) (ofP := PatentAssertion.ofP) (.attr (.elem (.elem (.elem .here)))) (fun _ => rfl) hN he ht (fun _ => rfl) (fun _ _ => rfl)⟩

/-- cyclonedx.go:239-276 -/
theorem xml_elements_component :
    Element X.component ["bom-ref", "mime-type", "type"] ["supplier", "manufacturer", "author", "authors", "publisher", "group", "name", "version", "description", "scope", "hashes", "licenses", "copyright", "cpe", "purl", "omniborId", "swhid", "swid", "modified", "pedigree", "externalReferences", "properties", "components", "evidence", "releaseNotes", "modelCard", "data", "cryptoProperties", "tags", "isExternal", "patentAssertions", "versionRange"] (fun (x : Component) _ => x) ∧
    AttrField X.component (fun (x : Component) _ => x) "bom-ref" false XText.string (fun x => x.bomRef)
      (fun (x : Component) v => { x with bomRef := v }) ∧
    AttrField X.component (fun (x : Component) _ => x) "mime-type" false XText.string (fun x => x.mimeType)
      (fun (x : Component) v => { x with mimeType := v }) ∧
    AttrField X.component (fun (x : Component) _ => x) "type" true XText.string (fun x => x.type)
      (fun (x : Component) v => { x with type := v }) ∧
    ElemField X.component (fun (x : Component) _ => x) (.ptr "supplier" X.organizationalEntity) (fun x => x.supplier)
      (fun (x : Component) v => { x with supplier := v }) ∧
    ElemField X.component (fun (x : Component) _ => x) (.ptr "manufacturer" X.organizationalEntity) (fun x => x.manufacturer)
      (fun (x : Component) v => { x with manufacturer := v }) ∧
    ElemField X.component (fun (x : Component) _ => x) (.plain "author" true X.string) (fun x => x.author)
      (fun (x : Component) v => { x with author := v }) ∧
    ElemField X.component (fun (x : Component) _ => x) (.nlist "authors" "author" true X.organizationalContact) (fun x => x.authors)
      (fun (x : Component) v => { x with authors := v }) ∧
    ElemField X.component (fun (x : Component) _ => x) (.plain "publisher" true X.string) (fun x => x.publisher)
      (fun (x : Component) v => { x with publisher := v }) ∧
    ElemField X.component (fun (x : Component) _ => x) (.plain "group" true X.string) (fun x => x.group)
      (fun (x : Component) v => { x with group := v }) ∧
    ElemField X.component (fun (x : Component) _ => x) (.plain "name" false X.string) (fun x => x.name)
      (fun (x : Component) v => { x with name := v }) ∧
    ElemField X.component (fun (x : Component) _ => x) (.plain "version" true X.string) (fun x => x.version)
      (fun (x : Component) v => { x with version := v }) ∧
    ElemField X.component (fun (x : Component) _ => x) (.plain "description" true X.string) (fun x => x.description)
      (fun (x : Component) v => { x with description := v }) ∧
    ElemField X.component (fun (x : Component) _ => x) (.plain "scope" true X.string) (fun x => x.scope)
      (fun (x : Component) v => { x with scope := v }) ∧
    ElemField X.component (fun (x : Component) _ => x) (.nlist "hashes" "hash" true X.hash) (fun x => x.hashes)
      (fun (x : Component) v => { x with hashes := v }) ∧
    ElemField X.component (fun (x : Component) _ => x) (.slice "licenses" X.licenses) (fun x => x.licenses)
      (fun (x : Component) v => { x with licenses := v }) ∧
    ElemField X.component (fun (x : Component) _ => x) (.plain "copyright" true X.string) (fun x => x.copyright)
      (fun (x : Component) v => { x with copyright := v }) ∧
    ElemField X.component (fun (x : Component) _ => x) (.plain "cpe" true X.string) (fun x => x.cpe)
      (fun (x : Component) v => { x with cpe := v }) ∧
    ElemField X.component (fun (x : Component) _ => x) (.plain "purl" true X.string) (fun x => x.packageURL)
      (fun (x : Component) v => { x with packageURL := v }) ∧
    ElemField X.component (fun (x : Component) _ => x) (.list "omniborId" true X.string) (fun x => x.omniborID)
      (fun (x : Component) v => { x with omniborID := v }) ∧
    ElemField X.component (fun (x : Component) _ => x) (.list "swhid" true X.string) (fun x => x.swhid)
      (fun (x : Component) v => { x with swhid := v }) ∧
    ElemField X.component (fun (x : Component) _ => x) (.ptr "swid" X.swid) (fun x => x.swid)
      (fun (x : Component) v => { x with swid := v }) ∧
    ElemField X.component (fun (x : Component) _ => x) (.ptr "modified" X.bool) (fun x => x.modified)
      (fun (x : Component) v => { x with modified := v }) ∧
    ElemField X.component (fun (x : Component) _ => x) (.ptr "pedigree" (X.pedigree X.component)) (fun x => x.pedigree)
      (fun (x : Component) v => { x with pedigree := v }) ∧
    ElemField X.component (fun (x : Component) _ => x) (.nlist "externalReferences" "reference" true X.externalReference) (fun x => x.externalReferences)
      (fun (x : Component) v => { x with externalReferences := v }) ∧
    ElemField X.component (fun (x : Component) _ => x) (.nlist "properties" "property" true X.property) (fun x => x.properties)
      (fun (x : Component) v => { x with properties := v }) ∧
    ElemField X.component (fun (x : Component) _ => x) (.nlist "components" "component" true X.component) (fun x => x.components)
      (fun (x : Component) v => { x with components := v }) ∧
    ElemField X.component (fun (x : Component) _ => x) (.ptr "evidence" X.evidence) (fun x => x.evidence)
      (fun (x : Component) v => { x with evidence := v }) ∧
    ElemField X.component (fun (x : Component) _ => x) (.ptr "releaseNotes" X.releaseNotes) (fun x => x.releaseNotes)
      (fun (x : Component) v => { x with releaseNotes := v }) ∧
    ElemField X.component (fun (x : Component) _ => x) (.ptr "modelCard" X.mlModelCard) (fun x => x.modelCard)
      (fun (x : Component) v => { x with modelCard := v }) ∧
    ElemField X.component (fun (x : Component) _ => x) (.list "data" true X.componentData) (fun x => x.data)
      (fun (x : Component) v => { x with data := v }) ∧
    ElemField X.component (fun (x : Component) _ => x) (.ptr "cryptoProperties" X.cryptoProperties) (fun x => x.cryptoProperties)
      (fun (x : Component) v => { x with cryptoProperties := v }) ∧
    ElemField X.component (fun (x : Component) _ => x) (.nlist "tags" "tag" true X.string) (fun x => x.tags)
      (fun (x : Component) v => { x with tags := v }) ∧
    ElemField X.component (fun (x : Component) _ => x) (.ptr "isExternal" X.bool) (fun x => x.isExternal)
      (fun (x : Component) v => { x with isExternal := v }) ∧
    ElemField X.component (fun (x : Component) _ => x) (.nlist "patentAssertions" "patentAssertion" true X.patentAssertion) (fun x => x.patentAssertions)
      (fun (x : Component) v => { x with patentAssertions := v }) ∧
    ElemField X.component (fun (x : Component) _ => x) (.plain "versionRange" true X.string) (fun x => x.versionRange)
      (fun (x : Component) v => { x with versionRange := v }) := by
  have hN : XFields.Named (X.componentFields X.component) := by
    have : XNames (X.componentFields X.component) := by unfold X.componentFields; infer_instance
    exact this.named
  have ha : XFields.attrNames (X.componentFields X.component) |>.Nodup := show (["bom-ref", "mime-type", "type"] : List String).Nodup by decide +kernel
  have he : XFields.elemNames (X.componentFields X.component) |>.Nodup := show (["supplier", "manufacturer", "author", "authors", "publisher", "group", "name", "version", "description", "scope", "hashes", "licenses", "copyright", "cpe", "purl", "omniborId", "swhid", "swid", "modified", "pedigree", "externalReferences", "properties", "components", "evidence", "releaseNotes", "modelCard", "data", "cryptoProperties", "tags", "isExternal", "patentAssertions", "versionRange"] : List String).Nodup by decide +kernel
  have ht : ∀ x s, (fun (x : Component) _ => x) x s = Component.ofP (XFields.setText (X.componentFields X.component) s (Component.toP x)) := (fun s v => by cases s; rfl)
  exact ⟨(struct_element (F := (X.componentFields X.component)) (toP := Component.toP) (ofP := Component.ofP) (fun _ => rfl) hN ht _ _ rfl rfl).congr (fun t x o h => (xcomponent_enc t x).symm.trans h) xcomponent_dec,
    (struct_attr (F := (X.componentFields X.component)) (toP := Component.toP) (ofP := Component.ofP) .here (fun _ => rfl) ha ht (fun _ => rfl) (fun s v => by cases s; rfl)).congr (fun t x o h => (xcomponent_enc t x).symm.trans h) xcomponent_dec,
    (struct_attr (F := (X.componentFields X.component)) (toP := Component.toP) (ofP := Component.ofP) (.attr .here) (fun _ => rfl) ha ht (fun _ => rfl) (fun s v => by cases s; rfl)).congr (fun t x o h => (xcomponent_enc t x).symm.trans h) xcomponent_dec,
    (struct_attr (F := (X.componentFields X.component)) (toP := Component.toP) (ofP := Component.ofP) (.attr (.attr .here)) (fun _ => rfl) ha ht (fun _ => rfl) (fun s v => by cases s; rfl)).congr (fun t x o h => (xcomponent_enc t x).symm.trans h) xcomponent_dec,
    (struct_elem (F := (X.componentFields X.component)) (toP := Component.toP) (ofP := Component.ofP) (.attr (.attr (.attr .here))) (fun _ => rfl) hN he ht (fun _ => rfl) (fun s v => by cases s; rfl)).congr (fun t x o h => (xcomponent_enc t x).symm.trans h) xcomponent_dec,
    (struct_elem (F := (X.componentFields X.component)) (toP := Component.toP) (ofP := Component.ofP) (.attr (.attr (.attr (.elem .here)))) (fun _ => rfl) hN he ht (fun _ => rfl) (fun s v => by cases s; rfl)).congr (fun t x o h => (xcomponent_enc t x).symm.trans h) xcomponent_dec,
    (struct_elem (F := (X.componentFields X.component)) (toP := Component.toP) (ofP := Component.ofP) (.attr (.attr (.attr (.elem (.elem .here))))) (fun _ => rfl) hN he ht (fun _ => rfl) (fun s v => by cases s; rfl)).congr (fun t x o h => (xcomponent_enc t x).symm.trans h) xcomponent_dec,
    (struct_elem (F := (X.componentFields X.component)) (toP := Component.toP) (ofP := Component.ofP) (.attr (.attr (.attr (.elem (.elem (.elem .here)))))) (fun _ => rfl) hN he ht (fun _ => rfl) (fun s v => by cases s; rfl)).congr (fun t x o h => (xcomponent_enc t x).symm.trans h) xcomponent_dec,
    (struct_elem (F := (X.componentFields X.component)) (toP := Component.toP) (ofP := Component.ofP) (.attr (.attr (.attr (.elem (.elem (.elem (.elem .here))))))) (fun _ => rfl) hN he ht (fun _ => rfl) (fun s v => by cases s; rfl)).congr (fun t x o h => (xcomponent_enc t x).symm.trans h) xcomponent_dec,
    (struct_elem (F := (X.componentFields X.component)) (toP := Component.toP) (ofP := Component.ofP) (.attr (.attr (.attr (.elem (.elem (.elem (.elem (.elem .here)))))))) (fun _ => rfl) hN he ht (fun _ => rfl) (fun s v => by cases s; rfl)).congr (fun t x o h => (xcomponent_enc t x).symm.trans h) xcomponent_dec,
    (struct_elem (F := (X.componentFields X.component)) (toP := Component.toP) (ofP := Component.ofP) (.attr (.attr (.attr (.elem (.elem (.elem (.elem (.elem (.elem .here))))))))) (fun _ => rfl) hN he ht (fun _ => rfl) (fun s v => by cases s; rfl)).congr (fun t x o h => (xcomponent_enc t x).symm.trans h) xcomponent_dec,
    (struct_elem (F := (X.componentFields X.component)) (toP := Component.toP) (ofP := Component.ofP) (.attr (.attr (.attr (.elem (.elem (.elem (.elem (.elem (.elem (.elem .here)))))))))) (fun _ => rfl) hN he ht (fun _ => rfl) (fun s v => by cases s; rfl)).congr (fun t x o h => (xcomponent_enc t x).symm.trans h) xcomponent_dec,
    (struct_elem (F := (X.componentFields X.component)) (toP := Component.toP) (ofP := Component.ofP) (.attr (.attr (.attr (.elem (.elem (.elem (.elem (.elem (.elem (.elem (.elem .here))))))))))) (fun _ => rfl) hN he ht (fun _ => rfl) (fun s v => by cases s; rfl)).congr (fun t x o h => (xcomponent_enc t x).symm.trans h) xcomponent_dec,
    (struct_elem (F := (X.componentFields X.component)) (toP := Component.toP) (ofP := Component.ofP) (.attr (.attr (.attr (.elem (.elem (.elem (.elem (.elem (.elem (.elem (.elem (.elem .here)))))))))))) (fun _ => rfl) hN he ht (fun _ => rfl) (fun s v => by cases s; rfl)).congr (fun t x o h => (xcomponent_enc t x).symm.trans h) xcomponent_dec,
    (struct_elem (F := (X.componentFields X.component)) (toP := Component.toP) (ofP := Component.ofP) (.attr (.attr (.attr (.elem (.elem (.elem (.elem (.elem (.elem (.elem (.elem (.elem (.elem .here))))))))))))) (fun _ => rfl) hN he ht (fun _ => rfl) (fun s v => by cases s; rfl)).congr (fun t x o h => (xcomponent_enc t x).symm.trans h) xcomponent_dec,
    (struct_elem (F := (X.componentFields X.component)) (toP := Component.toP) (ofP := Component.ofP) (.attr (.attr (.attr (.elem (.elem (.elem (.elem (.elem (.elem (.elem (.elem (.elem (.elem (.elem .here)))))))))))))) (fun _ => rfl) hN he ht (fun _ => rfl) (fun s v => by cases s; rfl)).congr (fun t x o h => (xcomponent_enc t x).symm.trans h) xcomponent_dec,
    (struct_elem (F := (X.componentFields X.component)) (toP := Component.toP) (ofP := Component.ofP) (.attr (.attr (.attr (.elem (.elem (.elem (.elem (.elem (.elem (.elem (.elem (.elem (.elem (.elem (.elem .here))))))))))))))) (fun _ => rfl) hN he ht (fun _ => rfl) (fun s v => by cases s; rfl)).congr (fun t x o h => (xcomponent_enc t x).symm.trans h) xcomponent_dec,
    (struct_elem (F := (X.componentFields X.component)) (toP := Component.toP) (ofP := Component.ofP) (.attr (.attr (.attr (.elem (.elem (.elem (.elem (.elem (.elem (.elem (.elem (.elem (.elem (.elem (.elem (.elem .here)))))))))))))))) (fun _ => rfl) hN he ht (fun _ => rfl) (fun s v => by cases s; rfl)).congr (fun t x o h => (xcomponent_enc t x).symm.trans h) xcomponent_dec,
    (struct_elem (F := (X.componentFields X.component)) (toP := Component.toP) (ofP := Component.ofP) (.attr (.attr (.attr (.elem (.elem (.elem (.elem (.elem (.elem (.elem (.elem (.elem (.elem (.elem (.elem (.elem (.elem .here))))))))))))))))) (fun _ => rfl) hN he ht (fun _ => rfl) (fun s v => by cases s; rfl)).congr (fun t x o h => (xcomponent_enc t x).symm.trans h) xcomponent_dec,
    (struct_elem (F := (X.componentFields X.component)) (toP := Component.toP) (ofP := Component.ofP) (.attr (.attr (.attr (.elem (.elem (.elem (.elem (.elem (.elem (.elem (.elem (.elem (.elem (.elem (.elem (.elem (.elem (.elem .here)))))))))))))))))) (fun _ => rfl) hN he ht (fun _ => rfl) (fun s v => by cases s; rfl)).congr (fun t x o h => (xcomponent_enc t x).symm.trans h) xcomponent_dec,
    (struct_elem (F := (X.componentFields X.component)) (toP := Component.toP) (ofP := Component.ofP) (.attr (.attr (.attr (.elem (.elem (.elem (.elem (.elem (.elem (.elem (.elem (.elem (.elem (.elem (.elem (.elem (.elem (.elem (.elem .here))))))))))))))))))) (fun _ => rfl) hN he ht (fun _ => rfl) (fun s v => by cases s; rfl)).congr (fun t x o h => (xcomponent_enc t x).symm.trans h) xcomponent_dec,
    (struct_elem (F := (X.componentFields X.component)) (toP := Component.toP) (ofP := Component.ofP) (.attr (.attr (.attr (.elem (.elem (.elem (.elem (.elem (.elem (.elem (.elem (.elem (.elem (.elem (.elem (.elem (.elem (.elem (.elem (.elem .here)))))))))))))))))))) (fun _ => rfl) hN he ht (fun _ => rfl) (fun s v => by cases s; rfl)).congr (fun t x o h => (xcomponent_enc t x).symm.trans h) xcomponent_dec,
    (struct_elem (F := (X.componentFields X.component)) (toP := Component.toP) (ofP := Component.ofP) (.attr (.attr (.attr (.elem (.elem (.elem (.elem (.elem (.elem (.elem (.elem (.elem (.elem (.elem (.elem (.elem (.elem (.elem (.elem (.elem (.elem .here))))))))))))))))))))) (fun _ => rfl) hN he ht (fun _ => rfl) (fun s v => by cases s; rfl)).congr (fun t x o h => (xcomponent_enc t x).symm.trans h) xcomponent_dec,
    (struct_elem (F := (X.componentFields X.component)) (toP := Component.toP) (ofP := Component.ofP) (.attr (.attr (.attr (.elem (.elem (.elem (.elem (.elem (.elem (.elem (.elem (.elem (.elem (.elem (.elem (.elem (.elem (.elem (.elem (.elem (.elem (.elem .here)))))))))))))))))))))) (fun _ => rfl) hN he ht (fun _ => rfl) (fun s v => by cases s; rfl)).congr (fun t x o h => (xcomponent_enc t x).symm.trans h) xcomponent_dec,
    (struct_elem (F := (X.componentFields X.component)) (toP := Component.toP) (ofP := Component.ofP) (.attr (.attr (.attr (.elem (.elem (.elem (.elem (.elem (.elem (.elem (.elem (.elem (.elem (.elem (.elem (.elem (.elem (.elem (.elem (.elem (.elem (.elem (.elem .here))))))))))))))))))))))) (fun _ => rfl) hN he ht (fun _ => rfl) (fun s v => by cases s; rfl)).congr (fun t x o h => (xcomponent_enc t x).symm.trans h) xcomponent_dec,
    (struct_elem (F := (X.componentFields X.component)) (toP := Component.toP) (ofP := Component.ofP) (.attr (.attr (.attr (.elem (.elem (.elem (.elem (.elem (.elem (.elem (.elem (.elem (.elem (.elem (.elem (.elem (.elem (.elem (.elem (.elem (.elem (.elem (.elem (.elem .here)))))))))))))))))))))))) (fun _ => rfl) hN he ht (fun _ => rfl) (fun s v => by cases s; rfl)).congr (fun t x o h => (xcomponent_enc t x).symm.trans h) xcomponent_dec,
    (struct_elem (F := (X.componentFields X.component)) (toP := Component.toP) (ofP := Component.ofP) (.attr (.attr (.attr (.elem (.elem (.elem (.elem (.elem (.elem (.elem (.elem (.elem (.elem (.elem (.elem (.elem (.elem (.elem (.elem (.elem (.elem (.elem (.elem (.elem (.elem .here))))))))))))))))))))))))) (fun _ => rfl) hN he ht (fun _ => rfl) (fun s v => by cases s; rfl)).congr (fun t x o h => (xcomponent_enc t x).symm.trans h) xcomponent_dec,
    (struct_elem (F := (X.componentFields X.component)) (toP := Component.toP) (ofP := Component.ofP) (.attr (.attr (.attr (.elem (.elem (.elem (.elem (.elem (.elem (.elem (.elem (.elem (.elem (.elem (.elem (.elem (.elem (.elem (.elem (.elem (.elem (.elem (.elem (.elem (.elem (.elem .here)))))))))))))))))))))))))) (fun _ => rfl) hN he ht (fun _ => rfl) (fun s v => by cases s; rfl)).congr (fun t x o h => (xcomponent_enc t x).symm.trans h) xcomponent_dec,
    (struct_elem (F := (X.componentFields X.component)) (toP := Component.toP) (ofP := Component.ofP) (.attr (.attr (.attr (.elem (.elem (.elem (.elem (.elem (.elem (.elem (.elem (.elem (.elem (.elem (.elem (.elem (.elem (.elem (.elem (.elem (.elem (.elem (.elem (.elem (.elem (.elem (.elem .here))))))))))))))))))))))))))) (fun _ => rfl) hN he ht (fun _ => rfl) (fun s v => by cases s; rfl)).congr (fun t x o h => (xcomponent_enc t x).symm.trans h) xcomponent_dec,
    (struct_elem (F := (X.componentFields X.component)) (toP := Component.toP) (ofP := Component.ofP) (.attr (.attr (.attr (.elem (.elem (.elem (.elem (.elem (.elem (.elem (.elem (.elem (.elem (.elem (.elem (.elem (.elem (.elem (.elem (.elem (.elem (.elem (.elem (.elem (.elem (.elem (.elem (.elem .here)))))))))))))))))))))))))))) (fun _ => rfl) hN he ht (fun _ => rfl) (fun s v => by cases s; rfl)).congr (fun t x o h => (xcomponent_enc t x).symm.trans h) xcomponent_dec,
    (struct_elem (F := (X.componentFields X.component)) (toP := Component.toP) (ofP := Component.ofP) (.attr (.attr (.attr (.elem (.elem (.elem (.elem (.elem (.elem (.elem (.elem (.elem (.elem (.elem (.elem (.elem (.elem (.elem (.elem (.elem (.elem (.elem (.elem (.elem (.elem (.elem (.elem (.elem (.elem .here))))))))))))))))))))))))))))) (fun _ => rfl) hN he ht (fun _ => rfl) (fun s v => by cases s; rfl)).congr (fun t x o h => (xcomponent_enc t x).symm.trans h) xcomponent_dec,
    (struct_elem (F := (X.componentFields X.component)) (toP := Component.toP) (ofP := Component.ofP) (.attr (.attr (.attr (.elem (.elem (.elem (.elem (.elem (.elem (.elem (.elem (.elem (.elem (.elem (.elem (.elem (.elem (.elem (.elem (.elem (.elem (.elem (.elem (.elem (.elem (.elem (.elem (.elem (.elem (.elem .here)))))))))))))))))))))))))))))) (fun _ => rfl) hN he ht (fun _ => rfl) (fun s v => by cases s; rfl)).congr (fun t x o h => (xcomponent_enc t x).symm.trans h) xcomponent_dec,
    (struct_elem (F := (X.componentFields X.component)) (toP := Component.toP) (ofP := Component.ofP) (.attr (.attr (.attr (.elem (.elem (.elem (.elem (.elem (.elem (.elem (.elem (.elem (.elem (.elem (.elem (.elem (.elem (.elem (.elem (.elem (.elem (.elem (.elem (.elem (.elem (.elem (.elem (.elem (.elem (.elem (.elem .here))))))))))))))))))))))))))))))) (fun _ => rfl) hN he ht (fun _ => rfl) (fun s v => by cases s; rfl)).congr (fun t x o h => (xcomponent_enc t x).symm.trans h) xcomponent_dec,
    (struct_elem (F := (X.componentFields X.component)) (toP := Component.toP) (ofP := Component.ofP) (.attr (.attr (.attr (.elem (.elem (.elem (.elem (.elem (.elem (.elem (.elem (.elem (.elem (.elem (.elem (.elem (.elem (.elem (.elem (.elem (.elem (.elem (.elem (.elem (.elem (.elem (.elem (.elem (.elem (.elem (.elem (.elem .here)))))))))))))))))))))))))))))))) (fun _ => rfl) hN he ht (fun _ => rfl) (fun s v => by cases s; rfl)).congr (fun t x o h => (xcomponent_enc t x).symm.trans h) xcomponent_dec,
    (struct_elem (F := (X.componentFields X.component)) (toP := Component.toP) (ofP := Component.ofP) (.attr (.attr (.attr (.elem (.elem (.elem (.elem (.elem (.elem (.elem (.elem (.elem (.elem (.elem (.elem (.elem (.elem (.elem (.elem (.elem (.elem (.elem (.elem (.elem (.elem (.elem (.elem (.elem (.elem (.elem (.elem (.elem (.elem .here))))))))))))))))))))))))))))))))) (fun _ => rfl) hN he ht (fun _ => rfl) (fun s v => by cases s; rfl)).congr (fun t x o h => (xcomponent_enc t x).symm.trans h) xcomponent_dec,
    (struct_elem (F := (X.componentFields X.component)) (toP := Component.toP) (ofP := Component.ofP) (.attr (.attr (.attr (.elem (.elem (.elem (.elem (.elem (.elem (.elem (.elem (.elem (.elem (.elem (.elem (.elem (.elem (.elem (.elem (.elem (.elem (.elem (.elem (.elem (.elem (.elem (.elem (.elem (.elem (.elem (.elem (.elem (.elem (.elem .here)))))))))))))))))))))))))))))))))) (fun _ => rfl) hN he ht (fun _ => rfl) (fun s v => by cases s; rfl)).congr (fun t x o h => (xcomponent_enc t x).symm.trans h) xcomponent_dec⟩

/-- cyclonedx.go:1362-1382 -/
theorem xml_elements_service :
    Element X.service ["bom-ref"] ["provider", "group", "name", "version", "description", "endpoints", "authenticated", "x-trust-boundary", "data", "licenses", "externalReferences", "properties", "services", "releaseNotes", "tags", "trustZone", "patentAssertions"] (fun (x : Service) _ => x) ∧
    AttrField X.service (fun (x : Service) _ => x) "bom-ref" false XText.string (fun x => x.bomRef)
      (fun (x : Service) v => { x with bomRef := v }) ∧
    ElemField X.service (fun (x : Service) _ => x) (.ptr "provider" X.organizationalEntity) (fun x => x.provider)
      (fun (x : Service) v => { x with provider := v }) ∧
    ElemField X.service (fun (x : Service) _ => x) (.plain "group" true X.string) (fun x => x.group)
      (fun (x : Service) v => { x with group := v }) ∧
    ElemField X.service (fun (x : Service) _ => x) (.plain "name" false X.string) (fun x => x.name)
      (fun (x : Service) v => { x with name := v }) ∧
    ElemField X.service (fun (x : Service) _ => x) (.plain "version" true X.string) (fun x => x.version)
      (fun (x : Service) v => { x with version := v }) ∧
    ElemField X.service (fun (x : Service) _ => x) (.plain "description" true X.string) (fun x => x.description)
      (fun (x : Service) v => { x with description := v }) ∧
    ElemField X.service (fun (x : Service) _ => x) (.nlist "endpoints" "endpoint" true X.string) (fun x => x.endpoints)
      (fun (x : Service) v => { x with endpoints := v }) ∧
    ElemField X.service (fun (x : Service) _ => x) (.ptr "authenticated" X.bool) (fun x => x.authenticated)
      (fun (x : Service) v => { x with authenticated := v }) ∧
    ElemField X.service (fun (x : Service) _ => x) (.ptr "x-trust-boundary" X.bool) (fun x => x.crossesTrustBoundary)
      (fun (x : Service) v => { x with crossesTrustBoundary := v }) ∧
    ElemField X.service (fun (x : Service) _ => x) (.nlist "data" "dataflow" true X.dataClassification) (fun x => x.data)
      (fun (x : Service) v => { x with data := v }) ∧
    ElemField X.service (fun (x : Service) _ => x) (.slice "licenses" X.licenses) (fun x => x.licenses)
      (fun (x : Service) v => { x with licenses := v }) ∧
    ElemField X.service (fun (x : Service) _ => x) (.nlist "externalReferences" "reference" true X.externalReference) (fun x => x.externalReferences)
      (fun (x : Service) v => { x with externalReferences := v }) ∧
    ElemField X.service (fun (x : Service) _ => x) (.nlist "properties" "property" true X.property) (fun x => x.properties)
      (fun (x : Service) v => { x with properties := v }) ∧
    ElemField X.service (fun (x : Service) _ => x) (.nlist "services" "service" true X.service) (fun x => x.services)
      (fun (x : Service) v => { x with services := v }) ∧
    ElemField X.service (fun (x : Service) _ => x) (.ptr "releaseNotes" X.releaseNotes) (fun x => x.releaseNotes)
      (fun (x : Service) v => { x with releaseNotes := v }) ∧
    ElemField X.service (fun (x : Service) _ => x) (.nlist "tags" "tag" true X.string) (fun x => x.tags)
      (fun (x : Service) v => { x with tags := v }) ∧
    ElemField X.service (fun (x : Service) _ => x) (.plain "trustZone" true X.string) (fun x => x.trustZone)
      (fun (x : Service) v => { x with trustZone := v }) ∧
    ElemField X.service (fun (x : Service) _ => x) (.nlist "patentAssertions" "patentAssertion" true X.patentAssertion) (fun x => x.patentAssertions)
      (fun (x : Service) v => { x with patentAssertions := v }) := by
  have hN : XFields.Named (X.serviceFields X.service) := by
    have : XNames (X.serviceFields X.service) := by unfold X.serviceFields; infer_instance
    exact this.named
  have ha : XFields.attrNames (X.serviceFields X.service) |>.Nodup := show (["bom-ref"] : List String).Nodup by decide +kernel
  have he : XFields.elemNames (X.serviceFields X.service) |>.Nodup := show (["provider", "group", "name", "version", "description", "endpoints", "authenticated", "x-trust-boundary", "data", "licenses", "externalReferences", "properties", "services", "releaseNotes", "tags", "trustZone", "patentAssertions"] : List String).Nodup by decide +kernel
  have ht : ∀ x s, (fun (x : Service) _ => x) x s = Service.ofP (XFields.setText (X.serviceFields X.service) s (Service.toP x)) := (fun s v => by cases s; rfl)
  exact ⟨(struct_element (F := (X.serviceFields X.service)) (toP := Service.toP) (ofP := Service.ofP) (fun _ => rfl) hN ht _ _ rfl rfl).congr (fun t x o h => (xservice_enc t x).symm.trans h) xservice_dec,
    (struct_attr (F := (X.serviceFields X.service)) (toP := Service.toP) (ofP := Service.ofP) .here (fun _ => rfl) ha ht (fun _ => rfl) (fun s v => by cases s; rfl)).congr (fun t x o h => (xservice_enc t x).symm.trans h) xservice_dec,
    (struct_elem (F := (X.serviceFields X.service)) (toP := Service.toP) (ofP := Service.ofP) (.attr .here) (fun _ => rfl) hN he ht (fun _ => rfl) (fun s v => by cases s; rfl)).congr (fun t x o h => (xservice_enc t x).symm.trans h) xservice_dec,
    (struct_elem (F := (X.serviceFields X.service)) (toP := Service.toP) (ofP := Service.ofP) (.attr (.elem .here)) (fun _ => rfl) hN he ht (fun _ => rfl) (fun s v => by cases s; rfl)).congr (fun t x o h => (xservice_enc t x).symm.trans h) xservice_dec,
    (struct_elem (F := (X.serviceFields X.service)) (toP := Service.toP) (ofP := Service.ofP) (.attr (.elem (.elem .here))) (fun _ => rfl) hN he ht (fun _ => rfl) (fun s v => by cases s; rfl)).congr (fun t x o h => (xservice_enc t x).symm.trans h) xservice_dec,
    (struct_elem (F := (X.serviceFields X.service)) (toP := Service.toP) (ofP := Service.ofP) (.attr (.elem (.elem (.elem .here)))) (fun _ => rfl) hN he ht (fun _ => rfl) (fun s v => by cases s; rfl)).congr (fun t x o h => (xservice_enc t x).symm.trans h) xservice_dec,
    (struct_elem (F := (X.serviceFields X.service)) (toP := Service.toP) (ofP := Service.ofP) (.attr (.elem (.elem (.elem (.elem .here))))) (fun _ => rfl) hN he ht (fun _ => rfl) (fun s v => by cases s; rfl)).congr (fun t x o h => (xservice_enc t x).symm.trans h) xservice_dec,
    (struct_elem (F := (X.serviceFields X.service)) (toP := Service.toP) (ofP := Service.ofP) (.attr (.elem (.elem (.elem (.elem (.elem .here)))))) (fun _ => rfl) hN he ht (fun _ => rfl) (fun s v => by cases s; rfl)).congr (fun t x o h => (xservice_enc t x).symm.trans h) xservice_dec,
    (struct_elem (F := (X.serviceFields X.service)) (toP := Service.toP) (ofP := Service.ofP) (.attr (.elem (.elem (.elem (.elem (.elem (.elem .here))))))) (fun _ => rfl) hN he ht (fun _ => rfl) (fun s v => by cases s; rfl)).congr (fun t x o h => (xservice_enc t x).symm.trans h) xservice_dec,
    (struct_elem (F := (X.serviceFields X.service)) (toP := Service.toP) (ofP := Service.ofP) (.attr (.elem (.elem (.elem (.elem (.elem (.elem (.elem .here)))))))) (fun _ => rfl) hN he ht (fun _ => rfl) (fun s v => by cases s; rfl)).congr (fun t x o h => (xservice_enc t x).symm.trans h) xservice_dec,
    (struct_elem (F := (X.serviceFields X.service)) (toP := Service.toP) (ofP := Service.ofP) (.attr (.elem (.elem (.elem (.elem (.elem (.elem (.elem (.elem .here))))))))) (fun _ => rfl) hN he ht (fun _ => rfl) (fun s v => by cases s; rfl)).congr (fun t x o h => (xservice_enc t x).symm.trans h) xservice_dec,
    (struct_elem (F := (X.serviceFields X.service)) (toP := Service.toP) (ofP := Service.ofP) (.attr (.elem (.elem (.elem (.elem (.elem (.elem (.elem (.elem (.elem .here)))))))))) (fun _ => rfl) hN he ht (fun _ => rfl) (fun s v => by cases s; rfl)).congr (fun t x o h => (xservice_enc t x).symm.trans h) xservice_dec,
    (struct_elem (F := (X.serviceFields X.service)) (toP := Service.toP) (ofP := Service.ofP) (.attr (.elem (.elem (.elem (.elem (.elem (.elem (.elem (.elem (.elem (.elem .here))))))))))) (fun _ => rfl) hN he ht (fun _ => rfl) (fun s v => by cases s; rfl)).congr (fun t x o h => (xservice_enc t x).symm.trans h) xservice_dec,
    (struct_elem (F := (X.serviceFields X.service)) (toP := Service.toP) (ofP := Service.ofP) (.attr (.elem (.elem (.elem (.elem (.elem (.elem (.elem (.elem (.elem (.elem (.elem .here)))))))))))) (fun _ => rfl) hN he ht (fun _ => rfl) (fun s v => by cases s; rfl)).congr (fun t x o h => (xservice_enc t x).symm.trans h) xservice_dec,
    (struct_elem (F := (X.serviceFields X.service)) (toP := Service.toP) (ofP := Service.ofP) (.attr (.elem (.elem (.elem (.elem (.elem (.elem (.elem (.elem (.elem (.elem (.elem (.elem .here))))))))))))) (fun _ => rfl) hN he ht (fun _ => rfl) (fun s v => by cases s; rfl)).congr (fun t x o h => (xservice_enc t x).symm.trans h) xservice_dec,
    (struct_elem (F := (X.serviceFields X.service)) (toP := Service.toP) (ofP := Service.ofP) (.attr (.elem (.elem (.elem (.elem (.elem (.elem (.elem (.elem (.elem (.elem (.elem (.elem (.elem .here)))))))))))))) (fun _ => rfl) hN he ht (fun _ => rfl) (fun s v => by cases s; rfl)).congr (fun t x o h => (xservice_enc t x).symm.trans h) xservice_dec,
    (struct_elem (F := (X.serviceFields X.service)) (toP := Service.toP) (ofP := Service.ofP) (.attr (.elem (.elem (.elem (.elem (.elem (.elem (.elem (.elem (.elem (.elem (.elem (.elem (.elem (.elem .here))))))))))))))) (fun _ => rfl) hN he ht (fun _ => rfl) (fun s v => by cases s; rfl)).congr (fun t x o h => (xservice_enc t x).symm.trans h) xservice_dec,
    (struct_elem (F := (X.serviceFields X.service)) (toP := Service.toP) (ofP := Service.ofP) (.attr (.elem (.elem (.elem (.elem (.elem (.elem (.elem (.elem (.elem (.elem (.elem (.elem (.elem (.elem (.elem .here)))))))))))))))) (fun _ => rfl) hN he ht (fun _ => rfl) (fun s v => by cases s; rfl)).congr (fun t x o h => (xservice_enc t x).symm.trans h) xservice_dec,
    (struct_elem (F := (X.serviceFields X.service)) (toP := Service.toP) (ofP := Service.ofP) (.attr (.elem (.elem (.elem (.elem (.elem (.elem (.elem (.elem (.elem (.elem (.elem (.elem (.elem (.elem (.elem (.elem .here))))))))))))))))) (fun _ => rfl) hN he ht (fun _ => rfl) (fun s v => by cases s; rfl)).congr (fun t x o h => (xservice_enc t x).symm.trans h) xservice_dec⟩

/-- cyclonedx.go:60-65 -/
theorem xml_elements_annotator :
    Element X.annotator [] ["organization", "individual", "component", "service"] (fun (x : Annotator) _ => x) ∧
    ElemField X.annotator (fun (x : Annotator) _ => x) (.ptr "organization" X.organizationalEntity) (fun x => x.organization)
      (fun (x : Annotator) v => { x with organization := v }) ∧
    ElemField X.annotator (fun (x : Annotator) _ => x) (.ptr "individual" X.organizationalContact) (fun x => x.individual)
      (fun (x : Annotator) v => { x with individual := v }) ∧
    ElemField X.annotator (fun (x : Annotator) _ => x) (.ptr "component" X.component) (fun x => x.component)
      (fun (x : Annotator) v => { x with component := v }) ∧
    ElemField X.annotator (fun (x : Annotator) _ => x) (.ptr "service" X.service) (fun x => x.service)
      (fun (x : Annotator) v => { x with service := v }) := by
  have hN : XFields.Named X.annotatorFields := by
    have : XNames X.annotatorFields := by unfold X.annotatorFields; infer_instance
    exact this.named
  have ha : XFields.attrNames X.annotatorFields |>.Nodup := show ([] : List String).Nodup by decide +kernel
  have he : XFields.elemNames X.annotatorFields |>.Nodup := show (["organization", "individual", "component", "service"] : List String).Nodup by decide +kernel
  have ht : ∀ x s, (fun (x : Annotator) _ => x) x s = Annotator.ofP (XFields.setText X.annotatorFields s (Annotator.toP x)) := (fun _ _ => rfl)
  exact ⟨struct_element (F := X.annotatorFields) (toP := Annotator.toP) (ofP := Annotator.ofP) (fun _ => rfl) hN ht _ _ rfl rfl,
    struct_elem (F := X.annotatorFields) (toP := Annotator.toP) (ofP := Annotator.ofP) .here (fun _ => rfl) hN he ht (fun _ => rfl) (fun _ _ => rfl),
    struct_elem (F := X.annotatorFields) (toP := Annotator.toP) (ofP := Annotator.ofP) (.elem .here) (fun _ => rfl) hN he ht (fun _ => rfl) (fun _ _ => rfl),
    struct_elem (F := X.annotatorFields) (toP := Annotator.toP) (ofP := Annotator.ofP) (.elem (.elem .here)) (fun _ => rfl) hN he ht (fun _ => rfl) (fun _ _ => rfl),
    struct_elem (F := X.annotatorFields) (toP := Annotator.toP) (ofP := Annotator.ofP) (.elem (.elem (.elem .here))) (fun _ => rfl) hN he ht (fun _ => rfl) (fun _ _ => rfl)⟩

/-- cyclonedx.go:51-58 -/
theorem xml_elements_annotation :
    Element X.annotation ["bom-ref"] ["subjects", "annotator", "timestamp", "text"] (fun (x : Annotation) _ => x) ∧
    AttrField X.annotation (fun (x : Annotation) _ => x) "bom-ref" false XText.string (fun x => x.bomRef)
      (fun (x : Annotation) v => { x with bomRef := v }) ∧
    ElemField X.annotation (fun (x : Annotation) _ => x) (.nlist "subjects" "subject" true X.bomReference) (fun x => x.subjects)
      (fun (x : Annotation) v => { x with subjects := v }) ∧
    ElemField X.annotation (fun (x : Annotation) _ => x) (.ptr "annotator" X.annotator) (fun x => x.annotator)
      (fun (x : Annotation) v => { x with annotator := v }) ∧
    ElemField X.annotation (fun (x : Annotation) _ => x) (.plain "timestamp" true X.string) (fun x => x.timestamp)
      (fun (x : Annotation) v => { x with timestamp := v }) ∧
    ElemField X.annotation (fun (x : Annotation) _ => x) (.plain "text" true X.string) (fun x => x.text)
      (fun (x : Annotation) v => { x with text := v }) := by
  have hN : XFields.Named X.annotationFields := by
    have : XNames X.annotationFields := by unfold X.annotationFields; infer_instance
    exact this.named
  have ha : XFields.attrNames X.annotationFields |>.Nodup := show (["bom-ref"] : List String).Nodup by decide +kernel
  have he : XFields.elemNames X.annotationFields |>.Nodup := show (["subjects", "annotator", "timestamp", "text"] : List String).Nodup by decide +kernel
  have ht : ∀ x s, (fun (x : Annotation) _ => x) x s = Annotation.ofP (XFields.setText X.annotationFields s (Annotation.toP x)) := (fun _ _ => rfl)
  exact ⟨struct_element (F := X.annotationFields) (toP := Annotation.toP) (ofP := Annotation.ofP) (fun _ => rfl) hN ht _ _ rfl rfl,
    struct_attr (F := X.annotationFields) (toP := Annotation.toP) (ofP := Annotation.ofP) .here (fun _ => rfl) ha ht (fun _ => rfl) (fun _ _ => rfl),
    struct_elem (F := X.annotationFields) (toP := Annotation.toP) (ofP := Annotation.ofP) (.attr .here) (fun _ => rfl) hN he ht (fun _ => rfl) (fun _ _ => rfl),
    struct_elem (F := X.annotationFields) (toP := Annotation.toP) (ofP := Annotation.ofP) (.attr (.elem .here)) (fun _ => rfl) hN he ht (fun _ => rfl) (fun _ _ => rfl),
    struct_elem (F := X.annotationFields) (toP := Annotation.toP) (ofP := Annotation.ofP) (.attr (.elem (.elem .here))) (fun _ => rfl) hN he ht (fun _ => rfl) (fun _ _ => rfl),
    struct_elem (F := X.annotationFields) (toP := Annotation.toP) (ofP := Annotation.ofP) (.attr (.elem (.elem (.elem .here)))) (fun _ => rfl) hN he ht (fun _ => rfl) (fun _ _ => rfl)⟩

/-- cyclonedx.go:67-71 -/
theorem xml_elements_assessor :
    Element X.assessor ["bom-ref"] ["thirdParty", "organization"] (fun (x : Assessor) _ => x) ∧
    AttrField X.assessor (fun (x : Assessor) _ => x) "bom-ref" false XText.bomReference (fun x => x.bomRef)
      (fun (x : Assessor) v => { x with bomRef := v }) ∧
    ElemField X.assessor (fun (x : Assessor) _ => x) (.plain "thirdParty" true X.bool) (fun x => x.thirdParty)
      (fun (x : Assessor) v => { x with thirdParty := v }) ∧
    ElemField X.assessor (fun (x : Assessor) _ => x) (.ptr "organization" X.organizationalEntity) (fun x => x.organization)
      (fun (x : Assessor) v => { x with organization := v }) := by
  have hN : XFields.Named X.assessorFields := by
    have : XNames X.assessorFields := by unfold X.assessorFields; infer_instance
    exact this.named
  have ha : XFields.attrNames X.assessorFields |>.Nodup := show (["bom-ref"] : List String).Nodup by decide +kernel
  have he : XFields.elemNames X.assessorFields |>.Nodup := show (["thirdParty", "organization"] : List String).Nodup by decide +kernel
  have ht : ∀ x s, (fun (x : Assessor) _ => x) x s = Assessor.ofP (XFields.setText X.assessorFields s (Assessor.toP x)) := (fun _ _ => rfl)
  exact ⟨struct_element (F := X.assessorFields) (toP := Assessor.toP) (ofP := Assessor.ofP) (fun _ => rfl) hN ht _ _ rfl rfl,
    struct_attr (F := X.assessorFields) (toP := Assessor.toP) (ofP := Assessor.ofP) .here (fun _ => rfl) ha ht (fun _ => rfl) (fun _ _ => rfl),
    struct_elem (F := X.assessorFields) (toP := Assessor.toP) (ofP := Assessor.ofP) (.attr .here) (fun _ => rfl) hN he ht (fun _ => rfl) (fun _ _ => rfl),
    struct_elem (F := X.assessorFields) (toP := Assessor.toP) (ofP := Assessor.ofP) (.attr (.elem .here)) (fun _ => rfl) hN he ht (fun _ => rfl) (fun _ _ => rfl)⟩

/-- cyclonedx.go:94-98 -/
theorem xml_elements_attestationConformance :
    Element X.attestationConformance [] ["score", "rationale", "mitigationStrategies"] (fun (x : AttestationConformance) _ => x) ∧
    ElemField X.attestationConformance (fun (x : AttestationConformance) _ => x) (.ptr "score" X.f64) (fun x => x.score)
      (fun (x : AttestationConformance) v => { x with score := v }) ∧
    ElemField X.attestationConformance (fun (x : AttestationConformance) _ => x) (.plain "rationale" true X.string) (fun x => x.rationale)
      (fun (x : AttestationConformance) v => { x with rationale := v }) ∧
    ElemField X.attestationConformance (fun (x : AttestationConformance) _ => x) (.nlist "mitigationStrategies" "mitigationStrategy" true X.bomReference) (fun x => x.mitigationStrategies)
      (fun (x : AttestationConformance) v => { x with mitigationStrategies := v }) := by
  have hN : XFields.Named X.attestationConformanceFields := by
    have : XNames X.attestationConformanceFields := by unfold X.attestationConformanceFields; infer_instance
    exact this.named
  have ha : XFields.attrNames X.attestationConformanceFields |>.Nodup := show ([] : List String).Nodup by decide +kernel
  have he : XFields.elemNames X.attestationConformanceFields |>.Nodup := show (["score", "rationale", "mitigationStrategies"] : List String).Nodup by decide +kernel
  have ht : ∀ x s, (fun (x : AttestationConformance) _ => x) x s = AttestationConformance.ofP (XFields.setText X.attestationConformanceFields s (AttestationConformance.toP x)) := (fun _ _ => rfl)
  exact ⟨struct_element (F := X.attestationConformanceFields) (toP := AttestationConformance.toP) (ofP := AttestationConformance.ofP) (fun _ => rfl) hN ht _ _ rfl rfl,
    struct_elem (F := X.attestationConformanceFields) (toP := AttestationConformance.toP) (ofP := AttestationConformance.ofP) .here (fun _ => rfl) hN he ht (fun _ => rfl) (fun _ _ => rfl),
    struct_elem (F := X.attestationConformanceFields) (toP := AttestationConformance.toP) (ofP := AttestationConformance.ofP) (.elem .here) (fun _ => rfl) hN he ht (fun _ => rfl) (fun _ _ => rfl),
    struct_elem (F := X.attestationConformanceFields) (toP := AttestationConformance.toP) (ofP := AttestationConformance.ofP) (.elem (.elem .here)) (fun _ => rfl) hN he ht (fun _ => rfl) (fun _ _ => rfl)⟩

/-- cyclonedx.go:100-103 -/
theorem xml_elements_attestationConfidence :
    Element X.attestationConfidence [] ["score", "rationale"] (fun (x : AttestationConfidence) _ => x) ∧
    ElemField X.attestationConfidence (fun (x : AttestationConfidence) _ => x) (.ptr "score" X.f64) (fun x => x.score)
      (fun (x : AttestationConfidence) v => { x with score := v }) ∧
    ElemField X.attestationConfidence (fun (x : AttestationConfidence) _ => x) (.plain "rationale" true X.string) (fun x => x.rationale)
      (fun (x : AttestationConfidence) v => { x with rationale := v }) := by
  have hN : XFields.Named X.attestationConfidenceFields := by
    have : XNames X.attestationConfidenceFields := by unfold X.attestationConfidenceFields; infer_instance
    exact this.named
  have ha : XFields.attrNames X.attestationConfidenceFields |>.Nodup := show ([] : List String).Nodup by decide +kernel
  have he : XFields.elemNames X.attestationConfidenceFields |>.Nodup := show (["score", "rationale"] : List String).Nodup by decide +kernel
  have ht : ∀ x s, (fun (x : AttestationConfidence) _ => x) x s = AttestationConfidence.ofP (XFields.setText X.attestationConfidenceFields s (AttestationConfidence.toP x)) := (fun _ _ => rfl)
  exact ⟨struct_element (F := X.attestationConfidenceFields) (toP := AttestationConfidence.toP) (ofP := AttestationConfidence.ofP) (fun _ => rfl) hN ht _ _ rfl rfl,
    struct_elem (F := X.attestationConfidenceFields) (toP := AttestationConfidence.toP) (ofP := AttestationConfidence.ofP) .here (fun _ => rfl) hN he ht (fun _ => rfl) (fun _ _ => rfl),
    struct_elem (F := X.attestationConfidenceFields) (toP := AttestationConfidence.toP) (ofP := AttestationConfidence.ofP) (.elem .here) (fun _ => rfl) hN he ht (fun _ => rfl) (fun _ _ => rfl)⟩

/-- cyclonedx.go:86-92 -/
theorem xml_elements_attestationMap :
    Element X.attestationMap [] ["requirement", "claims", "counterClaims", "conformance", "confidence"] (fun (x : AttestationMap) _ => x) ∧
    ElemField X.attestationMap (fun (x : AttestationMap) _ => x) (.plain "requirement" true X.string) (fun x => x.requirement)
      (fun (x : AttestationMap) v => { x with requirement := v }) ∧
    ElemField X.attestationMap (fun (x : AttestationMap) _ => x) (.nlist "claims" "claim" true X.bomReference) (fun x => x.claims)
      (fun (x : AttestationMap) v => { x with claims := v }) ∧
    ElemField X.attestationMap (fun (x : AttestationMap) _ => x) (.nlist "counterClaims" "counterClaim" true X.bomReference) (fun x => x.counterClaims)
      (fun (x : AttestationMap) v => { x with counterClaims := v }) ∧
    ElemField X.attestationMap (fun (x : AttestationMap) _ => x) (.ptr "conformance" X.attestationConformance) (fun x => x.conformance)
      (fun (x : AttestationMap) v => { x with conformance := v }) ∧
    ElemField X.attestationMap (fun (x : AttestationMap) _ => x) (.ptr "confidence" X.attestationConfidence) (fun x => x.confidence)
      (fun (x : AttestationMap) v => { x with confidence := v }) := by
  have hN : XFields.Named X.attestationMapFields := by
    have : XNames X.attestationMapFields := by unfold X.attestationMapFields; infer_instance
    exact this.named
  have ha : XFields.attrNames X.attestationMapFields |>.Nodup := show ([] : List String).Nodup by decide +kernel
  have he : XFields.elemNames X.attestationMapFields |>.Nodup := show (["requirement", "claims", "counterClaims", "conformance", "confidence"] : List String).Nodup by decide +kernel
  have ht : ∀ x s, (fun (x : AttestationMap) _ => x) x s = AttestationMap.ofP (XFields.setText X.attestationMapFields s (AttestationMap.toP x)) := (fun _ _ => rfl)
  exact ⟨struct_element (F := X.attestationMapFields) (toP := AttestationMap.toP) (ofP := AttestationMap.ofP) (fun _ => rfl) hN ht _ _ rfl rfl,
    struct_elem (F := X.attestationMapFields) (toP := AttestationMap.toP) (ofP := AttestationMap.ofP) .here (fun _ => rfl) hN he ht (fun _ => rfl) (fun _ _ => rfl),
    struct_elem (F := X.attestationMapFields) (toP := AttestationMap.toP) (ofP := AttestationMap.ofP) (.elem .here) (fun _ => rfl) hN he ht (fun _ => rfl) (fun _ _ => rfl),
    struct_elem (F := X.attestationMapFields) (toP := AttestationMap.toP) (ofP := AttestationMap.ofP) (.elem (.elem .here)) (fun _ => rfl) hN he ht (fun _ => rfl) (fun _ _ => rfl),
    struct_elem (F := X.attestationMapFields) (toP := AttestationMap.toP) (ofP := AttestationMap.ofP) (.elem (.elem (.elem .here))) (fun _ => rfl) hN he ht (fun _ => rfl) (fun _ _ => rfl),
    struct_elem (F := X.attestationMapFields) (toP := AttestationMap.toP) (ofP := AttestationMap.ofP) (.elem (.elem (.elem (.elem .here)))) (fun _ => rfl) hN he ht (fun _ => rfl) (fun _ _ => rfl)⟩

/-- cyclonedx.go:79-84 -/
theorem xml_elements_attestation :
    Element X.attestation [] ["summary", "assessor", "map"] (fun (x : Attestation) _ => x) ∧
    ElemField X.attestation (fun (x : Attestation) _ => x) (.plain "summary" true X.string) (fun x => x.summary)
      (fun (x : Attestation) v => { x with summary := v }) ∧
    ElemField X.attestation (fun (x : Attestation) _ => x) (.plain "assessor" true X.bomReference) (fun x => x.assessor)
      (fun (x : Attestation) v => { x with assessor := v }) ∧
    ElemField X.attestation (fun (x : Attestation) _ => x) (.list "map" true X.attestationMap) (fun x => x.map)
      (fun (x : Attestation) v => { x with map := v }) := by
  have hN : XFields.Named X.attestationFields := by
    have : XNames X.attestationFields := by unfold X.attestationFields; infer_instance
    exact this.named
  have ha : XFields.attrNames X.attestationFields |>.Nodup := show ([] : List String).Nodup by decide +kernel
  have he : XFields.elemNames X.attestationFields |>.Nodup := show (["summary", "assessor", "map"] : List String).Nodup by decide +kernel
  have ht : ∀ x s, (fun (x : Attestation) _ => x) x s = Attestation.ofP (XFields.setText X.attestationFields s (Attestation.toP x)) := (fun _ _ => rfl)
  exact ⟨struct_element (F := X.attestationFields) (toP := Attestation.toP) (ofP := Attestation.ofP) (fun _ => rfl) hN ht _ _ rfl rfl,
    struct_elem (F := X.attestationFields) (toP := Attestation.toP) (ofP := Attestation.ofP) .here (fun _ => rfl) hN he ht (fun _ => rfl) (fun _ _ => rfl),
    struct_elem (F := X.attestationFields) (toP := Attestation.toP) (ofP := Attestation.ofP) (.elem .here) (fun _ => rfl) hN he ht (fun _ => rfl) (fun _ _ => rfl),
    struct_elem (F := X.attestationFields) (toP := Attestation.toP) (ofP := Attestation.ofP) (.elem (.elem .here)) (fun _ => rfl) hN he ht (fun _ => rfl) (fun _ _ => rfl)⟩

/-- cyclonedx.go:321-328 -/
theorem xml_elements_composition :
    Element X.composition ["bom-ref"] ["aggregate", "assemblies", "dependencies", "vulnerabilities"] (fun (x : Composition) _ => x) ∧
    AttrField X.composition (fun (x : Composition) _ => x) "bom-ref" false XText.string (fun x => x.bomRef)
      (fun (x : Composition) v => { x with bomRef := v }) ∧
    ElemField X.composition (fun (x : Composition) _ => x) (.plain "aggregate" false X.string) (fun x => x.aggregate)
      (fun (x : Composition) v => { x with aggregate := v }) ∧
    ElemField X.composition (fun (x : Composition) _ => x) (.nlist "assemblies" "assembly" true X.bomReference) (fun x => x.assemblies)
      (fun (x : Composition) v => { x with assemblies := v }) ∧
    ElemField X.composition (fun (x : Composition) _ => x) (.nlist "dependencies" "dependency" true X.bomReference) (fun x => x.dependencies)
      (fun (x : Composition) v => { x with dependencies := v }) ∧
    ElemField X.composition (fun (x : Composition) _ => x) (.nlist "vulnerabilities" "vulnerability" true X.bomReference) (fun x => x.vulnerabilities)
      (fun (x : Composition) v => { x with vulnerabilities := v }) := by
  have hN : XFields.Named X.compositionFields := by
    have : XNames X.compositionFields := by unfold X.compositionFields; infer_instance
    exact this.named
  have ha : XFields.attrNames X.compositionFields |>.Nodup := show (["bom-ref"] : List String).Nodup by decide +kernel
  have he : XFields.elemNames X.compositionFields |>.Nodup := show (["aggregate", "assemblies", "dependencies", "vulnerabilities"] : List String).Nodup by decide +kernel
  have ht : ∀ x s, (fun (x : Composition) _ => x) x s = Composition.ofP (XFields.setText X.compositionFields s (Composition.toP x)) := (fun _ _ => rfl)
  exact ⟨struct_element (F := X.compositionFields) (toP := Composition.toP) (ofP := Composition.ofP) (fun _ => rfl) hN ht _ _ rfl rfl,
    struct_attr (F := X.compositionFields) (toP := Composition.toP) (ofP := Composition.ofP) .here (fun _ => rfl) ha ht (fun _ => rfl) (fun _ _ => rfl),
    struct_elem (F := X.compositionFields) (toP := Composition.toP) (ofP := Composition.ofP) (.attr .here) (fun _ => rfl) hN he ht (fun _ => rfl) (fun _ _ => rfl),
    struct_elem (F := X.compositionFields) (toP := Composition.toP) (ofP := Composition.ofP) (.attr (.elem .here)) (fun _ => rfl) hN he ht (fun _ => rfl) (fun _ _ => rfl),
    struct_elem (F := X.compositionFields) (toP := Composition.toP) (ofP := Composition.ofP) (.attr (.elem (.elem .here))) (fun _ => rfl) hN he ht (fun _ => rfl) (fun _ _ => rfl),
    struct_elem (F := X.compositionFields) (toP := Composition.toP) (ofP := Composition.ofP) (.attr (.elem (.elem (.elem .here)))) (fun _ => rfl) hN he ht (fun _ => rfl) (fun _ _ => rfl)⟩

/-- cyclonedx.go:193-203 -/
theorem xml_elements_claim :
    Element X.claim ["bom-ref"] ["target", "predicate", "mitigationStrategies", "reasoning", "evidence", "counterEvidence", "externalReferences"] (fun (x : Claim) _ => x) ∧
    AttrField X.claim (fun (x : Claim) _ => x) "bom-ref" false XText.string (fun x => x.bomRef)
      (fun (x : Claim) v => { x with bomRef := v }) ∧
    ElemField X.claim (fun (x : Claim) _ => x) (.plain "target" true X.bomReference) (fun x => x.target)
      (fun (x : Claim) v => { x with target := v }) ∧
    ElemField X.claim (fun (x : Claim) _ => x) (.plain "predicate" true X.string) (fun x => x.predicate)
      (fun (x : Claim) v => { x with predicate := v }) ∧
    ElemField X.claim (fun (x : Claim) _ => x) (.nlist "mitigationStrategies" "mitigationStrategy" true X.bomReference) (fun x => x.mitigationStrategies)
      (fun (x : Claim) v => { x with mitigationStrategies := v }) ∧
    ElemField X.claim (fun (x : Claim) _ => x) (.plain "reasoning" true X.string) (fun x => x.reasoning)
      (fun (x : Claim) v => { x with reasoning := v }) ∧
    ElemField X.claim (fun (x : Claim) _ => x) (.list "evidence" true X.bomReference) (fun x => x.evidence)
      (fun (x : Claim) v => { x with evidence := v }) ∧
    ElemField X.claim (fun (x : Claim) _ => x) (.list "counterEvidence" true X.bomReference) (fun x => x.counterEvidence)
      (fun (x : Claim) v => { x with counterEvidence := v }) ∧
    ElemField X.claim (fun (x : Claim) _ => x) (.nlist "externalReferences" "reference" true X.externalReference) (fun x => x.externalReferences)
      (fun (x : Claim) v => { x with externalReferences := v }) := by
  have hN : XFields.Named X.claimFields := by
    have : XNames X.claimFields := by unfold X.claimFields; infer_instance
    exact this.named
  have ha : XFields.attrNames X.claimFields |>.Nodup := show (["bom-ref"] : List String).Nodup by decide +kernel
  have he : XFields.elemNames X.claimFields |>.Nodup := show (["target", "predicate", "mitigationStrategies", "reasoning", "evidence", "counterEvidence", "externalReferences"] : List String).Nodup by decide +kernel
  have ht : ∀ x s, (fun (x : Claim) _ => x) x s = Claim.ofP (XFields.setText X.claimFields s (Claim.toP x)) := (fun _ _ => rfl)
  exact ⟨struct_element (F := X.claimFields) (toP := Claim.toP) (ofP := Claim.ofP) (fun _ => rfl) hN ht _ _ rfl rfl,
    struct_attr (F := X.claimFields) (toP := Claim.toP) (ofP := Claim.ofP) .here (fun _ => rfl) ha ht (fun _ => rfl) (fun _ _ => rfl),
    struct_elem (F := X.claimFields) (toP := Claim.toP) (ofP := Claim.ofP) (.attr .here) (fun _ => rfl) hN he ht (fun _ => rfl) (fun _ _ => rfl),
    struct_elem (F := X.claimFields) (toP := Claim.toP) (ofP := Claim.ofP) (.attr (.elem .here)) (fun _ => rfl) hN he ht (fun _ => rfl) (fun _ _ => rfl),
    struct_elem (F := X.claimFields) (toP := Claim.toP) (ofP := Claim.ofP) (.attr (.elem (.elem .here))) (fun _ => rfl) hN he ht (fun _ => rfl) (fun _ _ => rfl),
    struct_elem (F := X.claimFields) (toP := Claim.toP) (ofP := Claim.ofP) (.attr (.elem (.elem (.elem .here)))) (fun _ => rfl) hN he ht (fun _ => rfl) (fun _ _ => rfl),
    struct_elem (F := X.claimFields) (toP := Claim.toP) (ofP := Claim.ofP) (.attr (.elem (.elem (.elem (.elem .here))))) (fun _ => rfl) hN he ht (fun _ => rfl) (fun _ _ => rfl),
    struct_elem (F := X.claimFields) (toP := Claim.toP) (ofP := Claim.ofP) (.attr (.elem (.elem (.elem (.elem (.elem .here)))))) (fun _ => rfl) hN he ht (fun _ => rfl) (fun _ _ => rfl),
    struct_elem (F := X.claimFields) (toP := Claim.toP) (ofP := Claim.ofP) (.attr (.elem (.elem (.elem (.elem (.elem (.elem .here))))))) (fun _ => rfl) hN he ht (fun _ => rfl) (fun _ _ => rfl)⟩

/-- cyclonedx.go:619-622 -/
theorem xml_elements_evidenceDataContents :
    Element X.evidenceDataContents [] ["attachment", "url"] (fun (x : EvidenceDataContents) _ => x) ∧
    ElemField X.evidenceDataContents (fun (x : EvidenceDataContents) _ => x) (.ptr "attachment" X.attachedText) (fun x => x.attachment)
      (fun (x : EvidenceDataContents) v => { x with attachment := v }) ∧
    ElemField X.evidenceDataContents (fun (x : EvidenceDataContents) _ => x) (.plain "url" true X.string) (fun x => x.url)
      (fun (x : EvidenceDataContents) v => { x with url := v }) := by
  have hN : XFields.Named X.evidenceDataContentsFields := by
    have : XNames X.evidenceDataContentsFields := by unfold X.evidenceDataContentsFields; infer_instance
    exact this.named
  have ha : XFields.attrNames X.evidenceDataContentsFields |>.Nodup := show ([] : List String).Nodup by decide +kernel
  have he : XFields.elemNames X.evidenceDataContentsFields |>.Nodup := show (["attachment", "url"] : List String).Nodup by decide +kernel
  have ht : ∀ x s, (fun (x : EvidenceDataContents) _ => x) x s = EvidenceDataContents.ofP (XFields.setText X.evidenceDataContentsFields s (EvidenceDataContents.toP x)) := (fun _ _ => rfl)
  exact ⟨struct_element (F := X.evidenceDataContentsFields) (toP := EvidenceDataContents.toP) (ofP := EvidenceDataContents.ofP) (fun _ => rfl) hN ht _ _ rfl rfl,
    struct_elem (F := X.evidenceDataContentsFields) (toP := EvidenceDataContents.toP) (ofP := EvidenceDataContents.ofP) .here (fun _ => rfl) hN he ht (fun _ => rfl) (fun _ _ => rfl),
    struct_elem (F := X.evidenceDataContentsFields) (toP := EvidenceDataContents.toP) (ofP := EvidenceDataContents.ofP) (.elem .here) (fun _ => rfl) hN he ht (fun _ => rfl) (fun _ _ => rfl)⟩

/-- cyclonedx.go:611-617 -/
theorem xml_elements_evidenceData :
    Element X.evidenceData [] ["name", "contents", "data", "sensitiveData", "governance"] (fun (x : EvidenceData) _ => x) ∧
    ElemField X.evidenceData (fun (x : EvidenceData) _ => x) (.plain "name" true X.string) (fun x => x.name)
      (fun (x : EvidenceData) v => { x with name := v }) ∧
    ElemField X.evidenceData (fun (x : EvidenceData) _ => x) (.ptr "contents" X.evidenceDataContents) (fun x => x.contents)
      (fun (x : EvidenceData) v => { x with contents := v }) ∧
    ElemField X.evidenceData (fun (x : EvidenceData) _ => x) (.nptr "data" "classification" X.dataClassification) (fun x => x.classification)
      (fun (x : EvidenceData) v => { x with classification := v }) ∧
    ElemField X.evidenceData (fun (x : EvidenceData) _ => x) (.list "sensitiveData" true X.string) (fun x => x.sensitiveData)
      (fun (x : EvidenceData) v => { x with sensitiveData := v }) ∧
    ElemField X.evidenceData (fun (x : EvidenceData) _ => x) (.ptr "governance" X.dataGovernance) (fun x => x.governance)
      (fun (x : EvidenceData) v => { x with governance := v }) := by
  have hN : XFields.Named X.evidenceDataFields := by
    have : XNames X.evidenceDataFields := by unfold X.evidenceDataFields; infer_instance
    exact this.named
  have ha : XFields.attrNames X.evidenceDataFields |>.Nodup := show ([] : List String).Nodup by decide +kernel
  have he : XFields.elemNames X.evidenceDataFields |>.Nodup := show (["name", "contents", "data", "sensitiveData", "governance"] : List String).Nodup by decide +kernel
  have ht : ∀ x s, (fun (x : EvidenceData) _ => x) x s = EvidenceData.ofP (XFields.setText X.evidenceDataFields s (EvidenceData.toP x)) := (fun _ _ => rfl)
  exact ⟨struct_element (F := X.evidenceDataFields) (toP := EvidenceData.toP) (ofP := EvidenceData.ofP) (fun _ => rfl) hN ht _ _ rfl rfl,
    struct_elem (F := X.evidenceDataFields) (toP := EvidenceData.toP) (ofP := EvidenceData.ofP) .here (fun _ => rfl) hN he ht (fun _ => rfl) (fun _ _ => rfl),
    struct_elem (F := X.evidenceDataFields) (toP := EvidenceData.toP) (ofP := EvidenceData.ofP) (.elem .here) (fun _ => rfl) hN he ht (fun _ => rfl) (fun _ _ => rfl),
    struct_elem (F := X.evidenceDataFields) (toP := EvidenceData.toP) (ofP := EvidenceData.ofP) (.elem (.elem .here)) (fun _ => rfl) hN he ht (fun _ => rfl) (fun _ _ => rfl),
    struct_elem (F := X.evidenceDataFields) (toP := EvidenceData.toP) (ofP := EvidenceData.ofP) (.elem (.elem (.elem .here))) (fun _ => rfl) hN he ht (fun _ => rfl) (fun _ _ => rfl),
    struct_elem (F := X.evidenceDataFields) (toP := EvidenceData.toP) (ofP := EvidenceData.ofP) (.elem (.elem (.elem (.elem .here)))) (fun _ => rfl) hN he ht (fun _ => rfl) (fun _ _ => rfl)⟩

/-- cyclonedx.go:586-596 -/
theorem xml_elements_declarationEvidence :
    Element X.declarationEvidence ["bom-ref"] ["propertyName", "description", "data", "created", "expires", "author", "reviewer"] (fun (x : DeclarationEvidence) _ => x) ∧
    AttrField X.declarationEvidence (fun (x : DeclarationEvidence) _ => x) "bom-ref" false XText.string (fun x => x.bomRef)
      (fun (x : DeclarationEvidence) v => { x with bomRef := v }) ∧
    ElemField X.declarationEvidence (fun (x : DeclarationEvidence) _ => x) (.plain "propertyName" true X.string) (fun x => x.propertyName)
      (fun (x : DeclarationEvidence) v => { x with propertyName := v }) ∧
    ElemField X.declarationEvidence (fun (x : DeclarationEvidence) _ => x) (.plain "description" true X.string) (fun x => x.description)
      (fun (x : DeclarationEvidence) v => { x with description := v }) ∧
    ElemField X.declarationEvidence (fun (x : DeclarationEvidence) _ => x) (.list "data" true X.evidenceData) (fun x => x.data)
      (fun (x : DeclarationEvidence) v => { x with data := v }) ∧
    ElemField X.declarationEvidence (fun (x : DeclarationEvidence) _ => x) (.plain "created" true X.string) (fun x => x.created)
      (fun (x : DeclarationEvidence) v => { x with created := v }) ∧
    ElemField X.declarationEvidence (fun (x : DeclarationEvidence) _ => x) (.plain "expires" true X.string) (fun x => x.expires)
      (fun (x : DeclarationEvidence) v => { x with expires := v }) ∧
    ElemField X.declarationEvidence (fun (x : DeclarationEvidence) _ => x) (.ptr "author" X.organizationalContact) (fun x => x.author)
      (fun (x : DeclarationEvidence) v => { x with author := v }) ∧
    ElemField X.declarationEvidence (fun (x : DeclarationEvidence) _ => x) (.ptr "reviewer" X.organizationalContact) (fun x => x.reviewer)
      (fun (x : DeclarationEvidence) v => { x with reviewer := v }) := by
  have hN : XFields.Named X.declarationEvidenceFields := by
    have : XNames X.declarationEvidenceFields := by unfold X.declarationEvidenceFields; infer_instance
    exact this.named
  have ha : XFields.attrNames X.declarationEvidenceFields |>.Nodup := show (["bom-ref"] : List String).Nodup by decide +kernel
  have he : XFields.elemNames X.declarationEvidenceFields |>.Nodup := show (["propertyName", "description", "data", "created", "expires", "author", "reviewer"] : List String).Nodup by decide +kernel
  have ht : ∀ x s, (fun (x : DeclarationEvidence) _ => x) x s = DeclarationEvidence.ofP (XFields.setText X.declarationEvidenceFields s (DeclarationEvidence.toP x)) := (fun _ _ => rfl)
  exact ⟨struct_element (F := X.declarationEvidenceFields) (toP := DeclarationEvidence.toP) (ofP := DeclarationEvidence.ofP) (fun _ => rfl) hN ht _ _ rfl rfl,
    struct_attr (F := X.declarationEvidenceFields) (toP := DeclarationEvidence.toP) (ofP := DeclarationEvidence.ofP) .here (fun _ => rfl) ha ht (fun _ => rfl) (fun _ _ => rfl),
    struct_elem (F := X.declarationEvidenceFields) (toP := DeclarationEvidence.toP) (ofP := DeclarationEvidence.ofP) (.attr .here) (fun _ => rfl) hN he ht (fun _ => rfl) (fun _ _ => rfl),
    struct_elem (F := X.declarationEvidenceFields) (toP := DeclarationEvidence.toP) (ofP := DeclarationEvidence.ofP) (.attr (.elem .here)) (fun _ => rfl) hN he ht (fun _ => rfl) (fun _ _ => rfl),
    struct_elem (F := X.declarationEvidenceFields) (toP := DeclarationEvidence.toP) (ofP := DeclarationEvidence.ofP) (.attr (.elem (.elem .here))) (fun _ => rfl) hN he ht (fun _ => rfl) (fun _ _ => rfl),
    struct_elem (F := X.declarationEvidenceFields) (toP := DeclarationEvidence.toP) (ofP := DeclarationEvidence.ofP) (.attr (.elem (.elem (.elem .here)))) (fun _ => rfl) hN he ht (fun _ => rfl) (fun _ _ => rfl),
    struct_elem (F := X.declarationEvidenceFields) (toP := DeclarationEvidence.toP) (ofP := DeclarationEvidence.ofP) (.attr (.elem (.elem (.elem (.elem .here))))) (fun _ => rfl) hN he ht (fun _ => rfl) (fun _ _ => rfl),
    struct_elem (F := X.declarationEvidenceFields) (toP := DeclarationEvidence.toP) (ofP := DeclarationEvidence.ofP) (.attr (.elem (.elem (.elem (.elem (.elem .here)))))) (fun _ => rfl) hN he ht (fun _ => rfl) (fun _ _ => rfl),
    struct_elem (F := X.declarationEvidenceFields) (toP := DeclarationEvidence.toP) (ofP := DeclarationEvidence.ofP) (.attr (.elem (.elem (.elem (.elem (.elem (.elem .here))))))) (fun _ => rfl) hN he ht (fun _ => rfl) (fun _ _ => rfl)⟩

/-- cyclonedx.go:624-628 -/
theorem xml_elements_targets :
    Element X.targets [] ["organizations", "components", "services"] (fun (x : Targets) _ => x) ∧
    ElemField X.targets (fun (x : Targets) _ => x) (.nlist "organizations" "organization" true X.organizationalEntity) (fun x => x.organizations)
      (fun (x : Targets) v => { x with organizations := v }) ∧
    ElemField X.targets (fun (x : Targets) _ => x) (.nlist "components" "component" true X.component) (fun x => x.components)
      (fun (x : Targets) v => { x with components := v }) ∧
    ElemField X.targets (fun (x : Targets) _ => x) (.nlist "services" "service" true X.service) (fun x => x.services)
      (fun (x : Targets) v => { x with services := v }) := by
  have hN : XFields.Named X.targetsFields := by
    have : XNames X.targetsFields := by unfold X.targetsFields; infer_instance
    exact this.named
  have ha : XFields.attrNames X.targetsFields |>.Nodup := show ([] : List String).Nodup by decide +kernel
  have he : XFields.elemNames X.targetsFields |>.Nodup := show (["organizations", "components", "services"] : List String).Nodup by decide +kernel
  have ht : ∀ x s, (fun (x : Targets) _ => x) x s = Targets.ofP (XFields.setText X.targetsFields s (Targets.toP x)) := (fun _ _ => rfl)
  exact ⟨struct_element (F := X.targetsFields) (toP := Targets.toP) (ofP := Targets.ofP) (fun _ => rfl) hN ht _ _ rfl rfl,
    struct_elem (F := X.targetsFields) (toP := Targets.toP) (ofP := Targets.ofP) .here (fun _ => rfl) hN he ht (fun _ => rfl) (fun _ _ => rfl),
    struct_elem (F := X.targetsFields) (toP := Targets.toP) (ofP := Targets.ofP) (.elem .here) (fun _ => rfl) hN he ht (fun _ => rfl) (fun _ _ => rfl),
    struct_elem (F := X.targetsFields) (toP := Targets.toP) (ofP := Targets.ofP) (.elem (.elem .here)) (fun _ => rfl) hN he ht (fun _ => rfl) (fun _ _ => rfl)⟩

/-- cyclonedx.go:636-642 -/
theorem xml_elements_signatory :
    Element X.signatory [] ["name", "role", "organization", "externalReference"] (fun (x : Signatory) _ => x) ∧
    ElemField X.signatory (fun (x : Signatory) _ => x) (.plain "name" true X.string) (fun x => x.name)
      (fun (x : Signatory) v => { x with name := v }) ∧
    ElemField X.signatory (fun (x : Signatory) _ => x) (.plain "role" true X.string) (fun x => x.role)
      (fun (x : Signatory) v => { x with role := v }) ∧
    ElemField X.signatory (fun (x : Signatory) _ => x) (.ptr "organization" X.organizationalEntity) (fun x => x.organization)
      (fun (x : Signatory) v => { x with organization := v }) ∧
    ElemField X.signatory (fun (x : Signatory) _ => x) (.ptr "externalReference" X.externalReference) (fun x => x.externalReference)
      (fun (x : Signatory) v => { x with externalReference := v }) := by
  have hN : XFields.Named X.signatoryFields := by
    have : XNames X.signatoryFields := by unfold X.signatoryFields; infer_instance
    exact this.named
  have ha : XFields.attrNames X.signatoryFields |>.Nodup := show ([] : List String).Nodup by decide +kernel
  have he : XFields.elemNames X.signatoryFields |>.Nodup := show (["name", "role", "organization", "externalReference"] : List String).Nodup by decide +kernel
  have ht : ∀ x s, (fun (x : Signatory) _ => x) x s = Signatory.ofP (XFields.setText X.signatoryFields s (Signatory.toP x)) := (fun _ _ => rfl)
  exact ⟨struct_element (F := X.signatoryFields) (toP := Signatory.toP) (ofP := Signatory.ofP) (fun _ => rfl) hN ht _ _ rfl rfl,
    struct_elem (F := X.signatoryFields) (toP := Signatory.toP) (ofP := Signatory.ofP) .here (fun _ => rfl) hN he ht (fun _ => rfl) (fun _ _ => rfl),
    struct_elem (F := X.signatoryFields) (toP := Signatory.toP) (ofP := Signatory.ofP) (.elem .here) (fun _ => rfl) hN he ht (fun _ => rfl) (fun _ _ => rfl),
    struct_elem (F := X.signatoryFields) (toP := Signatory.toP) (ofP := Signatory.ofP) (.elem (.elem (.skip .here))) (fun _ => rfl) hN he ht (fun _ => rfl) (fun _ _ => rfl),
    struct_elem (F := X.signatoryFields) (toP := Signatory.toP) (ofP := Signatory.ofP) (.elem (.elem (.skip (.elem .here)))) (fun _ => rfl) hN he ht (fun _ => rfl) (fun _ _ => rfl)⟩

/-- cyclonedx.go:630-634 -/
theorem xml_elements_affirmation :
    Element X.affirmation [] ["statement", "signatories"] (fun (x : Affirmation) _ => x) ∧
    ElemField X.affirmation (fun (x : Affirmation) _ => x) (.plain "statement" true X.string) (fun x => x.statement)
      (fun (x : Affirmation) v => { x with statement := v }) ∧
    ElemField X.affirmation (fun (x : Affirmation) _ => x) (.nlist "signatories" "signatory" true X.signatory) (fun x => x.signatories)
      (fun (x : Affirmation) v => { x with signatories := v }) := by
  have hN : XFields.Named X.affirmationFields := by
    have : XNames X.affirmationFields := by unfold X.affirmationFields; infer_instance
    exact this.named
  have ha : XFields.attrNames X.affirmationFields |>.Nodup := show ([] : List String).Nodup by decide +kernel
  have he : XFields.elemNames X.affirmationFields |>.Nodup := show (["statement", "signatories"] : List String).Nodup by decide +kernel
  have ht : ∀ x s, (fun (x : Affirmation) _ => x) x s = Affirmation.ofP (XFields.setText X.affirmationFields s (Affirmation.toP x)) := (fun _ _ => rfl)
  exact ⟨struct_element (F := X.affirmationFields) (toP := Affirmation.toP) (ofP := Affirmation.ofP) (fun _ => rfl) hN ht _ _ rfl rfl,
    struct_elem (F := X.affirmationFields) (toP := Affirmation.toP) (ofP := Affirmation.ofP) .here (fun _ => rfl) hN he ht (fun _ => rfl) (fun _ _ => rfl),
    struct_elem (F := X.affirmationFields) (toP := Affirmation.toP) (ofP := Affirmation.ofP) (.elem .here) (fun _ => rfl) hN he ht (fun _ => rfl) (fun _ _ => rfl)⟩

/-- cyclonedx.go:576-584 -/
theorem xml_elements_declarations :
    Element X.declarations [] ["assessors", "attestations", "claims", "evidence", "targets", "affirmation"] (fun (x : Declarations) _ => x) ∧
    ElemField X.declarations (fun (x : Declarations) _ => x) (.nlist "assessors" "assessor" true X.assessor) (fun x => x.assessors)
      (fun (x : Declarations) v => { x with assessors := v }) ∧
    ElemField X.declarations (fun (x : Declarations) _ => x) (.nlist "attestations" "attestation" true X.attestation) (fun x => x.attestations)
      (fun (x : Declarations) v => { x with attestations := v }) ∧
    ElemField X.declarations (fun (x : Declarations) _ => x) (.nlist "claims" "claim" true X.claim) (fun x => x.claims)
      (fun (x : Declarations) v => { x with claims := v }) ∧
    ElemField X.declarations (fun (x : Declarations) _ => x) (.nlist "evidence" "evidence" true X.declarationEvidence) (fun x => x.evidence)
      (fun (x : Declarations) v => { x with evidence := v }) ∧
    ElemField X.declarations (fun (x : Declarations) _ => x) (.ptr "targets" X.targets) (fun x => x.targets)
      (fun (x : Declarations) v => { x with targets := v }) ∧
    ElemField X.declarations (fun (x : Declarations) _ => x) (.ptr "affirmation" X.affirmation) (fun x => x.affirmation)
      (fun (x : Declarations) v => { x with affirmation := v }) := by
  have hN : XFields.Named X.declarationsFields := by
    have : XNames X.declarationsFields := by unfold X.declarationsFields; infer_instance
    exact this.named
  have ha : XFields.attrNames X.declarationsFields |>.Nodup := show ([] : List String).Nodup by decide +kernel
  have he : XFields.elemNames X.declarationsFields |>.Nodup := show (["assessors", "attestations", "claims", "evidence", "targets", "affirmation"] : List String).Nodup by decide +kernel
  have ht : ∀ x s, (fun (x : Declarations) _ => x) x s = Declarations.ofP (XFields.setText X.declarationsFields s (Declarations.toP x)) := (fun _ _ => rfl)
  exact ⟨struct_element (F := X.declarationsFields) (toP := Declarations.toP) (ofP := Declarations.ofP) (fun _ => rfl) hN ht _ _ rfl rfl,
    struct_elem (F := X.declarationsFields) (toP := Declarations.toP) (ofP := Declarations.ofP) .here (fun _ => rfl) hN he ht (fun _ => rfl) (fun _ _ => rfl),
    struct_elem (F := X.declarationsFields) (toP := Declarations.toP) (ofP := Declarations.ofP) (.elem .here) (fun _ => rfl) hN he ht (fun _ => rfl) (fun _ _ => rfl),
    struct_elem (F := X.declarationsFields) (toP := Declarations.toP) (ofP := Declarations.ofP) (.elem (.elem .here)) (fun _ => rfl) hN he ht (fun _ => rfl) (fun _ _ => rfl),
    struct_elem (F := X.declarationsFields) (toP := Declarations.toP) (ofP := Declarations.ofP) (.elem (.elem (.elem .here))) (fun _ => rfl) hN he ht (fun _ => rfl) (fun _ _ => rfl),
    struct_elem (F := X.declarationsFields) (toP := Declarations.toP) (ofP := Declarations.ofP) (.elem (.elem (.elem (.elem .here)))) (fun _ => rfl) hN he ht (fun _ => rfl) (fun _ _ => rfl),
    struct_elem (F := X.declarationsFields) (toP := Declarations.toP) (ofP := Declarations.ofP) (.elem (.elem (.elem (.elem (.elem .here))))) (fun _ => rfl) hN he ht (fun _ => rfl) (fun _ _ => rfl)⟩

/-- cyclonedx.go:1802-1806 -/
theorem xml_elements_priorityApplication :
    Element X.priorityApplication [] ["applicationNumber", "jurisdiction", "filingDate"] (fun (x : PriorityApplication) _ => x) ∧
    ElemField X.priorityApplication (fun (x : PriorityApplication) _ => x) (.plain "applicationNumber" false X.string) (fun x => x.applicationNumber)
      (fun (x : PriorityApplication) v => { x with applicationNumber := v }) ∧
    ElemField X.priorityApplication (fun (x : PriorityApplication) _ => x) (.plain "jurisdiction" false X.string) (fun x => x.jurisdiction)
      (fun (x : PriorityApplication) v => { x with jurisdiction := v }) ∧
    ElemField X.priorityApplication (fun (x : PriorityApplication) _ => x) (.plain "filingDate" false X.string) (fun x => x.filingDate)
      (fun (x : PriorityApplication) v => { x with filingDate := v }) := by
  have hN : XFields.Named X.priorityApplicationFields := by
    have : XNames X.priorityApplicationFields := by unfold X.priorityApplicationFields; infer_instance
    exact this.named
  have ha : XFields.attrNames X.priorityApplicationFields |>.Nodup := show ([] : List String).Nodup by decide +kernel
  have he : XFields.elemNames X.priorityApplicationFields |>.Nodup := show (["applicationNumber", "jurisdiction", "filingDate"] : List String).Nodup by decide +kernel
  have ht : ∀ x s, (fun (x : PriorityApplication) _ => x) x s = PriorityApplication.ofP (XFields.setText X.priorityApplicationFields s (PriorityApplication.toP x)) := (fun _ _ => rfl)
  exact ⟨struct_element (F := X.priorityApplicationFields) (toP := PriorityApplication.toP) (ofP := PriorityApplication.ofP) (fun _ => rfl) hN ht _ _ rfl rfl,
    struct_elem (F := X.priorityApplicationFields) (toP := PriorityApplication.toP) (ofP := PriorityApplication.ofP) .here (fun _ => rfl) hN he ht (fun _ => rfl) (fun _ _ => rfl),
    struct_elem (F := X.priorityApplicationFields) (toP := PriorityApplication.toP) (ofP := PriorityApplication.ofP) (.elem .here) (fun _ => rfl) hN he ht (fun _ => rfl) (fun _ _ => rfl),
    struct_elem (F := X.priorityApplicationFields) (toP := PriorityApplication.toP) (ofP := PriorityApplication.ofP) (.elem (.elem .here)) (fun _ => rfl) hN he ht (fun _ => rfl) (fun _ _ => rfl)⟩

/-- cyclonedx.go:1743-1758 -/
theorem xml_elements_patent :
    Element X.patent ["bom-ref"] ["patentNumber", "applicationNumber", "jurisdiction", "priorityApplication", "publicationNumber", "title", "abstract", "filingDate", "grantDate", "patentExpirationDate", "patentLegalStatus", "patentAssignee", "externalReferences"] (fun (x : Patent) _ => x) ∧
    AttrField X.patent (fun (x : Patent) _ => x) "bom-ref" false XText.string (fun x => x.bomRef)
      (fun (x : Patent) v => { x with bomRef := v }) ∧
    ElemField X.patent (fun (x : Patent) _ => x) (.plain "patentNumber" false X.string) (fun x => x.patentNumber)
      (fun (x : Patent) v => { x with patentNumber := v }) ∧
    ElemField X.patent (fun (x : Patent) _ => x) (.plain "applicationNumber" true X.string) (fun x => x.applicationNumber)
      (fun (x : Patent) v => { x with applicationNumber := v }) ∧
    ElemField X.patent (fun (x : Patent) _ => x) (.plain "jurisdiction" false X.string) (fun x => x.jurisdiction)
      (fun (x : Patent) v => { x with jurisdiction := v }) ∧
    ElemField X.patent (fun (x : Patent) _ => x) (.ptr "priorityApplication" X.priorityApplication) (fun x => x.priorityApplication)
      (fun (x : Patent) v => { x with priorityApplication := v }) ∧
    ElemField X.patent (fun (x : Patent) _ => x) (.plain "publicationNumber" true X.string) (fun x => x.publicationNumber)
      (fun (x : Patent) v => { x with publicationNumber := v }) ∧
    ElemField X.patent (fun (x : Patent) _ => x) (.plain "title" true X.string) (fun x => x.title)
      (fun (x : Patent) v => { x with title := v }) ∧
    ElemField X.patent (fun (x : Patent) _ => x) (.plain "abstract" true X.string) (fun x => x.abstract)
      (fun (x : Patent) v => { x with abstract := v }) ∧
    ElemField X.patent (fun (x : Patent) _ => x) (.plain "filingDate" true X.string) (fun x => x.filingDate)
      (fun (x : Patent) v => { x with filingDate := v }) ∧
    ElemField X.patent (fun (x : Patent) _ => x) (.plain "grantDate" true X.string) (fun x => x.grantDate)
      (fun (x : Patent) v => { x with grantDate := v }) ∧
    ElemField X.patent (fun (x : Patent) _ => x) (.plain "patentExpirationDate" true X.string) (fun x => x.patentExpirationDate)
      (fun (x : Patent) v => { x with patentExpirationDate := v }) ∧
    ElemField X.patent (fun (x : Patent) _ => x) (.plain "patentLegalStatus" false X.string) (fun x => x.patentLegalStatus)
      (fun (x : Patent) v => { x with patentLegalStatus := v }) ∧
    ElemField X.patent (fun (x : Patent) _ => x) (.list "patentAssignee" true X.organizationalEntityOrContact) (fun x => x.patentAssignee)
      (fun (x : Patent) v => { x with patentAssignee := v }) ∧
    ElemField X.patent (fun (x : Patent) _ => x) (.nlist "externalReferences" "reference" true X.externalReference) (fun x => x.externalReferences)
      (fun (x : Patent) v => { x with externalReferences := v }) := by
  have hN : XFields.Named X.patentFields := by
    have : XNames X.patentFields := by unfold X.patentFields; infer_instance
    exact this.named
  have ha : XFields.attrNames X.patentFields |>.Nodup := show (["bom-ref"] : List String).Nodup by decide +kernel
  have he : XFields.elemNames X.patentFields |>.Nodup := show (["patentNumber", "applicationNumber", "jurisdiction", "priorityApplication", "publicationNumber", "title", "abstract", "filingDate", "grantDate", "patentExpirationDate", "patentLegalStatus", "patentAssignee", "externalReferences"] : List String).Nodup by decide +kernel
  have ht : ∀ x s, (fun (x : Patent) _ => x) x s = Patent.ofP (XFields.setText X.patentFields s (Patent.toP x)) := (fun _ _ => rfl)
  exact ⟨struct_element (F := X.patentFields) (toP := Patent.toP) (ofP := Patent.ofP) (fun _ => rfl) hN ht _ _ rfl rfl,
    struct_attr (F := X.patentFields) (toP := Patent.toP) (ofP := Patent.ofP) .here (fun _ => rfl) ha ht (fun _ => rfl) (fun _ _ => rfl),
    struct_elem (F := X.patentFields) (toP := Patent.toP) (ofP := Patent.ofP) (.attr .here) (fun _ => rfl) hN he ht (fun _ => rfl) (fun _ _ => rfl),
    struct_elem (F := X.patentFields) (toP := Patent.toP) (ofP := Patent.ofP) (.attr (.elem .here)) (fun _ => rfl) hN he ht (fun _ => rfl) (fun _ _ => rfl),
    struct_elem (F := X.patentFields) (toP := Patent.toP) (ofP := Patent.ofP) (.attr (.elem (.elem .here))) (fun _ => rfl) hN he ht (fun _ => rfl) (fun _ _ => rfl),
    struct_elem (F := X.patentFields) (toP := Patent.toP) (ofP := Patent.ofP) (.attr (.elem (.elem (.elem .here)))) (fun _ => rfl) hN he ht (fun _ => rfl) (fun _ _ => rfl),
    struct_elem (F := X.patentFields) (toP := Patent.toP) (ofP := Patent.ofP) (.attr (.elem (.elem (.elem (.elem .here))))) (fun _ => rfl) hN he ht (fun _ => rfl) (fun _ _ => rfl),
    struct_elem (F := X.patentFields) (toP := Patent.toP) (ofP := Patent.ofP) (.attr (.elem (.elem (.elem (.elem (.elem .here)))))) (fun _ => rfl) hN he ht (fun _ => rfl) (fun _ _ => rfl),
    struct_elem (F := X.patentFields) (toP := Patent.toP) (ofP := Patent.ofP) (.attr (.elem (.elem (.elem (.elem (.elem (.elem .here))))))) (fun _ => rfl) hN he ht (fun _ => rfl) (fun _ _ => rfl),
    struct_elem (F := X.patentFields) (toP := Patent.toP) (ofP := Patent.ofP) (.attr (.elem (.elem (.elem (.elem (.elem (.elem (.elem .here)))))))) (fun _ => rfl) hN he ht (fun _ => rfl) (fun _ _ => rfl),
    struct_elem (F := X.patentFields) (toP := Patent.toP) (ofP := Patent.ofP) (.attr (.elem (.elem (.elem (.elem (.elem (.elem (.elem (.elem .here))))))))) (fun _ => rfl) hN he ht (fun _ => rfl) (fun _ _ => rfl),
    struct_elem (F := X.patentFields) (toP := Patent.toP) (ofP := Patent.ofP) (.attr (.elem (.elem (.elem (.elem (.elem (.elem (.elem (.elem (.elem .here)))))))))) (fun _ => rfl) hN he ht (fun _ => rfl) (fun _ _ => rfl),
    struct_elem (F := X.patentFields) (toP := Patent.toP) (ofP := Patent.ofP) (.attr (.elem (.elem (.elem (.elem (.elem (.elem (.elem (.elem (.elem (.elem .here))))))))))) (fun _ => rfl) hN he ht (fun _ => rfl) (fun _ _ => rfl),
    struct_elem (F := X.patentFields) (toP := Patent.toP) (ofP := Patent.ofP) (.attr (.elem (.elem (.elem (.elem (.elem (.elem (.elem (.elem (.elem (.elem (.elem .here)))))))))))) (fun _ => rfl) hN he ht (fun _ => rfl) (fun _ _ => rfl),
    struct_elem (F := X.patentFields) (toP := Patent.toP) (ofP := Patent.ofP) (.attr (.elem (.elem (.elem (.elem (.elem (.elem (.elem (.elem (.elem (.elem (.elem (.elem .here))))))))))))) (fun _ => rfl) hN he ht (fun _ => rfl) (fun _ _ => rfl)⟩

/-- cyclonedx.go:1761-1767 -/
theorem xml_elements_patentFamily :
    Element X.patentFamily ["bom-ref"] ["familyId", "priorityApplication", "members", "externalReferences"] (fun (x : PatentFamily) _ => x) ∧
    AttrField X.patentFamily (fun (x : PatentFamily) _ => x) "bom-ref" false XText.string (fun x => x.bomRef)
      (fun (x : PatentFamily) v => { x with bomRef := v }) ∧
    ElemField X.patentFamily (fun (x : PatentFamily) _ => x) (.plain "familyId" false X.string) (fun x => x.familyID)
      (fun (x : PatentFamily) v => { x with familyID := v }) ∧
    ElemField X.patentFamily (fun (x : PatentFamily) _ => x) (.ptr "priorityApplication" X.priorityApplication) (fun x => x.priorityApplication)
      (fun (x : PatentFamily) v => { x with priorityApplication := v }) ∧
    ElemField X.patentFamily (fun (x : PatentFamily) _ => x) (.nlist "members" "ref" true X.bomReference) (fun x => x.members)
      (fun (x : PatentFamily) v => { x with members := v }) ∧
    ElemField X.patentFamily (fun (x : PatentFamily) _ => x) (.nlist "externalReferences" "reference" true X.externalReference) (fun x => x.externalReferences)
      (fun (x : PatentFamily) v => { x with externalReferences := v }) := by
  have hN : XFields.Named X.patentFamilyFields := by
    have : XNames X.patentFamilyFields := by unfold X.patentFamilyFields; infer_instance
    exact this.named
  have ha : XFields.attrNames X.patentFamilyFields |>.Nodup := show (["bom-ref"] : List String).Nodup by decide +kernel
  have he : XFields.elemNames X.patentFamilyFields |>.Nodup := show (["familyId", "priorityApplication", "members", "externalReferences"] : List String).Nodup by decide +kernel
  have ht : ∀ x s, (fun (x : PatentFamily) _ => x) x s = PatentFamily.ofP (XFields.setText X.patentFamilyFields s (PatentFamily.toP x)) := (fun _ _ => rfl)
  exact ⟨struct_element (F := X.patentFamilyFields) (toP := PatentFamily.toP) (ofP := PatentFamily.ofP) (fun _ => rfl) hN ht _ _ rfl rfl,
    struct_attr (F := X.patentFamilyFields) (toP := PatentFamily.toP) (ofP := PatentFamily.ofP) .here (fun _ => rfl) ha ht (fun _ => rfl) (fun _ _ => rfl),
    struct_elem (F := X.patentFamilyFields) (toP := PatentFamily.toP) (ofP := PatentFamily.ofP) (.attr .here) (fun _ => rfl) hN he ht (fun _ => rfl) (fun _ _ => rfl),
    struct_elem (F := X.patentFamilyFields) (toP := PatentFamily.toP) (ofP := PatentFamily.ofP) (.attr (.elem .here)) (fun _ => rfl) hN he ht (fun _ => rfl) (fun _ _ => rfl),
    struct_elem (F := X.patentFamilyFields) (toP := PatentFamily.toP) (ofP := PatentFamily.ofP) (.attr (.elem (.elem .here))) (fun _ => rfl) hN he ht (fun _ => rfl) (fun _ _ => rfl),
    struct_elem (F := X.patentFamilyFields) (toP := PatentFamily.toP) (ofP := PatentFamily.ofP) (.attr (.elem (.elem (.elem .here)))) (fun _ => rfl) hN he ht (fun _ => rfl) (fun _ _ => rfl)⟩

/-- cyclonedx.go:1429-1439 -/
theorem xml_elements_standardRequirement :
    Element X.standardRequirement ["bom-ref"] ["identifier", "title", "text", "descriptions", "openCre", "parent", "properties", "externalReferences"] (fun (x : StandardRequirement) _ => x) ∧
    AttrField X.standardRequirement (fun (x : StandardRequirement) _ => x) "bom-ref" false XText.string (fun x => x.bomRef)
      (fun (x : StandardRequirement) v => { x with bomRef := v }) ∧
    ElemField X.standardRequirement (fun (x : StandardRequirement) _ => x) (.plain "identifier" true X.string) (fun x => x.identifier)
      (fun (x : StandardRequirement) v => { x with identifier := v }) ∧
    ElemField X.standardRequirement (fun (x : StandardRequirement) _ => x) (.plain "title" true X.string) (fun x => x.title)
      (fun (x : StandardRequirement) v => { x with title := v }) ∧
    ElemField X.standardRequirement (fun (x : StandardRequirement) _ => x) (.plain "text" true X.string) (fun x => x.text)
      (fun (x : StandardRequirement) v => { x with text := v }) ∧
    ElemField X.standardRequirement (fun (x : StandardRequirement) _ => x) (.nlist "descriptions" "description" true X.string) (fun x => x.descriptions)
      (fun (x : StandardRequirement) v => { x with descriptions := v }) ∧
    ElemField X.standardRequirement (fun (x : StandardRequirement) _ => x) (.list "openCre" true X.string) (fun x => x.openCRE)
      (fun (x : StandardRequirement) v => { x with openCRE := v }) ∧
    ElemField X.standardRequirement (fun (x : StandardRequirement) _ => x) (.plain "parent" true X.string) (fun x => x.parent)
      (fun (x : StandardRequirement) v => { x with parent := v }) ∧
    ElemField X.standardRequirement (fun (x : StandardRequirement) _ => x) (.nlist "properties" "property" true X.property) (fun x => x.properties)
      (fun (x : StandardRequirement) v => { x with properties := v }) ∧
    ElemField X.standardRequirement (fun (x : StandardRequirement) _ => x) (.nlist "externalReferences" "reference" true X.externalReference) (fun x => x.externalReferences)
      (fun (x : StandardRequirement) v => { x with externalReferences := v }) := by
  have hN : XFields.Named X.standardRequirementFields := by
    have : XNames X.standardRequirementFields := by unfold X.standardRequirementFields; infer_instance
    exact this.named
  have ha : XFields.attrNames X.standardRequirementFields |>.Nodup := show (["bom-ref"] : List String).Nodup by decide +kernel
  have he : XFields.elemNames X.standardRequirementFields |>.Nodup := show (["identifier", "title", "text", "descriptions", "openCre", "parent", "properties", "externalReferences"] : List String).Nodup by decide +kernel
  have ht : ∀ x s, (fun (x : StandardRequirement) _ => x) x s = StandardRequirement.ofP (XFields.setText X.standardRequirementFields s (StandardRequirement.toP x)) := (fun _ _ => rfl)
  exact ⟨struct_element (F := X.standardRequirementFields) (toP := StandardRequirement.toP) (ofP := StandardRequirement.ofP) (fun _ => rfl) hN ht _ _ rfl rfl,
    struct_attr (F := X.standardRequirementFields) (toP := StandardRequirement.toP) (ofP := StandardRequirement.ofP) .here (fun _ => rfl) ha ht (fun _ => rfl) (fun _ _ => rfl),
    struct_elem (F := X.standardRequirementFields) (toP := StandardRequirement.toP) (ofP := StandardRequirement.ofP) (.attr .here) (fun _ => rfl) hN he ht (fun _ => rfl) (fun _ _ => rfl),
    struct_elem (F := X.standardRequirementFields) (toP := StandardRequirement.toP) (ofP := StandardRequirement.ofP) (.attr (.elem .here)) (fun _ => rfl) hN he ht (fun _ => rfl) (fun _ _ => rfl),
    struct_elem (F := X.standardRequirementFields) (toP := StandardRequirement.toP) (ofP := StandardRequirement.ofP) (.attr (.elem (.elem .here))) (fun _ => rfl) hN he ht (fun _ => rfl) (fun _ _ => rfl),
    struct_elem (F := X.standardRequirementFields) (toP := StandardRequirement.toP) (ofP := StandardRequirement.ofP) (.attr (.elem (.elem (.elem .here)))) (fun _ => rfl) hN he ht (fun _ => rfl) (fun _ _ => rfl),
    struct_elem (F := X.standardRequirementFields) (toP := StandardRequirement.toP) (ofP := StandardRequirement.ofP) (.attr (.elem (.elem (.elem (.elem .here))))) (fun _ => rfl) hN he ht (fun _ => rfl) (fun _ _ => rfl),
    struct_elem (F := X.standardRequirementFields) (toP := StandardRequirement.toP) (ofP := StandardRequirement.ofP) (.attr (.elem (.elem (.elem (.elem (.elem .here)))))) (fun _ => rfl) hN he ht (fun _ => rfl) (fun _ _ => rfl),
    struct_elem (F := X.standardRequirementFields) (toP := StandardRequirement.toP) (ofP := StandardRequirement.ofP) (.attr (.elem (.elem (.elem (.elem (.elem (.elem .here))))))) (fun _ => rfl) hN he ht (fun _ => rfl) (fun _ _ => rfl),
    struct_elem (F := X.standardRequirementFields) (toP := StandardRequirement.toP) (ofP := StandardRequirement.ofP) (.attr (.elem (.elem (.elem (.elem (.elem (.elem (.elem .here)))))))) (fun _ => rfl) hN he ht (fun _ => rfl) (fun _ _ => rfl)⟩

/-- cyclonedx.go:1441-1447 -/
theorem xml_elements_standardLevel :
    Element X.standardLevel ["bom-ref"] ["identifier", "title", "description", "requirements"] (fun (x : StandardLevel) _ => x) ∧
    AttrField X.standardLevel (fun (x : StandardLevel) _ => x) "bom-ref" false XText.string (fun x => x.bomRef)
      (fun (x : StandardLevel) v => { x with bomRef := v }) ∧
    ElemField X.standardLevel (fun (x : StandardLevel) _ => x) (.plain "identifier" true X.string) (fun x => x.identifier)
      (fun (x : StandardLevel) v => { x with identifier := v }) ∧
    ElemField X.standardLevel (fun (x : StandardLevel) _ => x) (.plain "title" true X.string) (fun x => x.title)
      (fun (x : StandardLevel) v => { x with title := v }) ∧
    ElemField X.standardLevel (fun (x : StandardLevel) _ => x) (.plain "description" true X.string) (fun x => x.description)
      (fun (x : StandardLevel) v => { x with description := v }) ∧
    ElemField X.standardLevel (fun (x : StandardLevel) _ => x) (.nlist "requirements" "requirement" true X.string) (fun x => x.requirements)
      (fun (x : StandardLevel) v => { x with requirements := v }) := by
  have hN : XFields.Named X.standardLevelFields := by
    have : XNames X.standardLevelFields := by unfold X.standardLevelFields; infer_instance
    exact this.named
  have ha : XFields.attrNames X.standardLevelFields |>.Nodup := show (["bom-ref"] : List String).Nodup by decide +kernel
  have he : XFields.elemNames X.standardLevelFields |>.Nodup := show (["identifier", "title", "description", "requirements"] : List String).Nodup by decide +kernel
  have ht : ∀ x s, (fun (x : StandardLevel) _ => x) x s = StandardLevel.ofP (XFields.setText X.standardLevelFields s (StandardLevel.toP x)) := (fun _ _ => rfl)
  exact ⟨struct_element (F := X.standardLevelFields) (toP := StandardLevel.toP) (ofP := StandardLevel.ofP) (fun _ => rfl) hN ht _ _ rfl rfl,
    struct_attr (F := X.standardLevelFields) (toP := StandardLevel.toP) (ofP := StandardLevel.ofP) .here (fun _ => rfl) ha ht (fun _ => rfl) (fun _ _ => rfl),
    struct_elem (F := X.standardLevelFields) (toP := StandardLevel.toP) (ofP := StandardLevel.ofP) (.attr .here) (fun _ => rfl) hN he ht (fun _ => rfl) (fun _ _ => rfl),
    struct_elem (F := X.standardLevelFields) (toP := StandardLevel.toP) (ofP := StandardLevel.ofP) (.attr (.elem .here)) (fun _ => rfl) hN he ht (fun _ => rfl) (fun _ _ => rfl),
    struct_elem (F := X.standardLevelFields) (toP := StandardLevel.toP) (ofP := StandardLevel.ofP) (.attr (.elem (.elem .here))) (fun _ => rfl) hN he ht (fun _ => rfl) (fun _ _ => rfl),
    struct_elem (F := X.standardLevelFields) (toP := StandardLevel.toP) (ofP := StandardLevel.ofP) (.attr (.elem (.elem (.elem .here)))) (fun _ => rfl) hN he ht (fun _ => rfl) (fun _ _ => rfl)⟩

/-- cyclonedx.go:1416-1427 -/
theorem xml_elements_standardDefinition :
    Element X.standardDefinition ["bom-ref"] ["name", "version", "description", "owner", "requirements", "levels", "externalReferences"] (fun (x : StandardDefinition) _ => x) ∧
    AttrField X.standardDefinition (fun (x : StandardDefinition) _ => x) "bom-ref" false XText.string (fun x => x.bomRef)
      (fun (x : StandardDefinition) v => { x with bomRef := v }) ∧
    ElemField X.standardDefinition (fun (x : StandardDefinition) _ => x) (.plain "name" true X.string) (fun x => x.name)
      (fun (x : StandardDefinition) v => { x with name := v }) ∧
    ElemField X.standardDefinition (fun (x : StandardDefinition) _ => x) (.plain "version" true X.string) (fun x => x.version)
      (fun (x : StandardDefinition) v => { x with version := v }) ∧
    ElemField X.standardDefinition (fun (x : StandardDefinition) _ => x) (.plain "description" true X.string) (fun x => x.description)
      (fun (x : StandardDefinition) v => { x with description := v }) ∧
    ElemField X.standardDefinition (fun (x : StandardDefinition) _ => x) (.plain "owner" true X.string) (fun x => x.owner)
      (fun (x : StandardDefinition) v => { x with owner := v }) ∧
    ElemField X.standardDefinition (fun (x : StandardDefinition) _ => x) (.nlist "requirements" "requirement" true X.standardRequirement) (fun x => x.requirements)
      (fun (x : StandardDefinition) v => { x with requirements := v }) ∧
    ElemField X.standardDefinition (fun (x : StandardDefinition) _ => x) (.nlist "levels" "level" true X.standardLevel) (fun x => x.levels)
      (fun (x : StandardDefinition) v => { x with levels := v }) ∧
    ElemField X.standardDefinition (fun (x : StandardDefinition) _ => x) (.nlist "externalReferences" "reference" true X.externalReference) (fun x => x.externalReferences)
      (fun (x : StandardDefinition) v => { x with externalReferences := v }) := by
  have hN : XFields.Named X.standardDefinitionFields := by
    have : XNames X.standardDefinitionFields := by unfold X.standardDefinitionFields; infer_instance
    exact this.named
  have ha : XFields.attrNames X.standardDefinitionFields |>.Nodup := show (["bom-ref"] : List String).Nodup by decide +kernel
  have he : XFields.elemNames X.standardDefinitionFields |>.Nodup := show (["name", "version", "description", "owner", "requirements", "levels", "externalReferences"] : List String).Nodup by decide +kernel
  have ht : ∀ x s, (fun (x : StandardDefinition) _ => x) x s = StandardDefinition.ofP (XFields.setText X.standardDefinitionFields s (StandardDefinition.toP x)) := (fun _ _ => rfl)
  exact ⟨struct_element (F := X.standardDefinitionFields) (toP := StandardDefinition.toP) (ofP := StandardDefinition.ofP) (fun _ => rfl) hN ht _ _ rfl rfl,
    struct_attr (F := X.standardDefinitionFields) (toP := StandardDefinition.toP) (ofP := StandardDefinition.ofP) .here (fun _ => rfl) ha ht (fun _ => rfl) (fun _ _ => rfl),
    struct_elem (F := X.standardDefinitionFields) (toP := StandardDefinition.toP) (ofP := StandardDefinition.ofP) (.attr .here) (fun _ => rfl) hN he ht (fun _ => rfl) (fun _ _ => rfl),
    struct_elem (F := X.standardDefinitionFields) (toP := StandardDefinition.toP) (ofP := StandardDefinition.ofP) (.attr (.elem .here)) (fun _ => rfl) hN he ht (fun _ => rfl) (fun _ _ => rfl),
    struct_elem (F := X.standardDefinitionFields) (toP := StandardDefinition.toP) (ofP := StandardDefinition.ofP) (.attr (.elem (.elem .here))) (fun _ => rfl) hN he ht (fun _ => rfl) (fun _ _ => rfl),
    struct_elem (F := X.standardDefinitionFields) (toP := StandardDefinition.toP) (ofP := StandardDefinition.ofP) (.attr (.elem (.elem (.elem .here)))) (fun _ => rfl) hN he ht (fun _ => rfl) (fun _ _ => rfl),
    struct_elem (F := X.standardDefinitionFields) (toP := StandardDefinition.toP) (ofP := StandardDefinition.ofP) (.attr (.elem (.elem (.elem (.elem .here))))) (fun _ => rfl) hN he ht (fun _ => rfl) (fun _ _ => rfl),
    struct_elem (F := X.standardDefinitionFields) (toP := StandardDefinition.toP) (ofP := StandardDefinition.ofP) (.attr (.elem (.elem (.elem (.elem (.elem .here)))))) (fun _ => rfl) hN he ht (fun _ => rfl) (fun _ _ => rfl),
    struct_elem (F := X.standardDefinitionFields) (toP := StandardDefinition.toP) (ofP := StandardDefinition.ofP) (.attr (.elem (.elem (.elem (.elem (.elem (.elem .here))))))) (fun _ => rfl) hN he ht (fun _ => rfl) (fun _ _ => rfl)⟩

/-- cyclonedx.go:1337-1340 -/
theorem xml_elements_resourceReferenceChoice :
    Element X.resourceReferenceChoice [] ["ref", "externalReference"] (fun (x : ResourceReferenceChoice) _ => x) ∧
    ElemField X.resourceReferenceChoice (fun (x : ResourceReferenceChoice) _ => x) (.plain "ref" true X.string) (fun x => x.ref)
      (fun (x : ResourceReferenceChoice) v => { x with ref := v }) ∧
    ElemField X.resourceReferenceChoice (fun (x : ResourceReferenceChoice) _ => x) (.ptr "externalReference" X.externalReference) (fun x => x.externalReference)
      (fun (x : ResourceReferenceChoice) v => { x with externalReference := v }) := by
  have hN : XFields.Named X.resourceReferenceChoiceFields := by
    have : XNames X.resourceReferenceChoiceFields := by unfold X.resourceReferenceChoiceFields; infer_instance
    exact this.named
  have ha : XFields.attrNames X.resourceReferenceChoiceFields |>.Nodup := show ([] : List String).Nodup by decide +kernel
  have he : XFields.elemNames X.resourceReferenceChoiceFields |>.Nodup := show (["ref", "externalReference"] : List String).Nodup by decide +kernel
  have ht : ∀ x s, (fun (x : ResourceReferenceChoice) _ => x) x s = ResourceReferenceChoice.ofP (XFields.setText X.resourceReferenceChoiceFields s (ResourceReferenceChoice.toP x)) := (fun _ _ => rfl)
  exact ⟨struct_element (F := X.resourceReferenceChoiceFields) (toP := ResourceReferenceChoice.toP) (ofP := ResourceReferenceChoice.ofP) (fun _ => rfl) hN ht _ _ rfl rfl,
    struct_elem (F := X.resourceReferenceChoiceFields) (toP := ResourceReferenceChoice.toP) (ofP := ResourceReferenceChoice.ofP) .here (fun _ => rfl) hN he ht (fun _ => rfl) (fun _ _ => rfl),
    struct_elem (F := X.resourceReferenceChoiceFields) (toP := ResourceReferenceChoice.toP) (ofP := ResourceReferenceChoice.ofP) (.elem .here) (fun _ => rfl) hN he ht (fun _ => rfl) (fun _ _ => rfl)⟩

/-- cyclonedx.go:1231-1235 -/
theorem xml_elements_parameter :
    Element X.parameter [] ["name", "value", "dataType"] (fun (x : Parameter) _ => x) ∧
    ElemField X.parameter (fun (x : Parameter) _ => x) (.plain "name" true X.string) (fun x => x.name)
      (fun (x : Parameter) v => { x with name := v }) ∧
    ElemField X.parameter (fun (x : Parameter) _ => x) (.plain "value" true X.string) (fun x => x.value)
      (fun (x : Parameter) v => { x with value := v }) ∧
    ElemField X.parameter (fun (x : Parameter) _ => x) (.plain "dataType" true X.string) (fun x => x.dataType)
      (fun (x : Parameter) v => { x with dataType := v }) := by
  have hN : XFields.Named X.parameterFields := by
    have : XNames X.parameterFields := by unfold X.parameterFields; infer_instance
    exact this.named
  have ha : XFields.attrNames X.parameterFields |>.Nodup := show ([] : List String).Nodup by decide +kernel
  have he : XFields.elemNames X.parameterFields |>.Nodup := show (["name", "value", "dataType"] : List String).Nodup by decide +kernel
  have ht : ∀ x s, (fun (x : Parameter) _ => x) x s = Parameter.ofP (XFields.setText X.parameterFields s (Parameter.toP x)) := (fun _ _ => rfl)
  exact ⟨struct_element (F := X.parameterFields) (toP := Parameter.toP) (ofP := Parameter.ofP) (fun _ => rfl) hN ht _ _ rfl rfl,
    struct_elem (F := X.parameterFields) (toP := Parameter.toP) (ofP := Parameter.ofP) .here (fun _ => rfl) hN he ht (fun _ => rfl) (fun _ _ => rfl),
    struct_elem (F := X.parameterFields) (toP := Parameter.toP) (ofP := Parameter.ofP) (.elem .here) (fun _ => rfl) hN he ht (fun _ => rfl) (fun _ _ => rfl),
    struct_elem (F := X.parameterFields) (toP := Parameter.toP) (ofP := Parameter.ofP) (.elem (.elem .here)) (fun _ => rfl) hN he ht (fun _ => rfl) (fun _ _ => rfl)⟩

/-- cyclonedx.go:1482-1490 -/
theorem xml_elements_taskInput :
    Element X.taskInput [] ["resource", "parameters", "environmentVars", "data", "source", "target", "properties"] (fun (x : TaskInput) _ => x) ∧
    ElemField X.taskInput (fun (x : TaskInput) _ => x) (.ptr "resource" X.resourceReferenceChoice) (fun x => x.resource)
      (fun (x : TaskInput) v => { x with resource := v }) ∧
    ElemField X.taskInput (fun (x : TaskInput) _ => x) (.nlist "parameters" "parameter" true X.parameter) (fun x => x.parameters)
      (fun (x : TaskInput) v => { x with parameters := v }) ∧
    ElemField X.taskInput (fun (x : TaskInput) _ => x) (.slice "environmentVars" X.environmentVariables) (fun x => x.environmentVars)
      (fun (x : TaskInput) v => { x with environmentVars := v }) ∧
    ElemField X.taskInput (fun (x : TaskInput) _ => x) (.ptr "data" X.attachedText) (fun x => x.data)
      (fun (x : TaskInput) v => { x with data := v }) ∧
    ElemField X.taskInput (fun (x : TaskInput) _ => x) (.ptr "source" X.resourceReferenceChoice) (fun x => x.source)
      (fun (x : TaskInput) v => { x with source := v }) ∧
    ElemField X.taskInput (fun (x : TaskInput) _ => x) (.ptr "target" X.resourceReferenceChoice) (fun x => x.target)
      (fun (x : TaskInput) v => { x with target := v }) ∧
    ElemField X.taskInput (fun (x : TaskInput) _ => x) (.nlist "properties" "property" true X.property) (fun x => x.properties)
      (fun (x : TaskInput) v => { x with properties := v }) := by
  have hN : XFields.Named X.taskInputFields := by
    have : XNames X.taskInputFields := by unfold X.taskInputFields; infer_instance
    exact this.named
  have ha : XFields.attrNames X.taskInputFields |>.Nodup := show ([] : List String).Nodup by decide +kernel
  have he : XFields.elemNames X.taskInputFields |>.Nodup := show (["resource", "parameters", "environmentVars", "data", "source", "target", "properties"] : List String).Nodup by decide +kernel
  have ht : ∀ x s, (fun (x : TaskInput) _ => x) x s = TaskInput.ofP (XFields.setText X.taskInputFields s (TaskInput.toP x)) := (fun _ _ => rfl)
  exact ⟨struct_element (F := X.taskInputFields) (toP := TaskInput.toP) (ofP := TaskInput.ofP) (fun _ => rfl) hN ht _ _ rfl rfl,
    struct_elem (F := X.taskInputFields) (toP := TaskInput.toP) (ofP := TaskInput.ofP) .here (fun _ => rfl) hN he ht (fun _ => rfl) (fun _ _ => rfl),
    struct_elem (F := X.taskInputFields) (toP := TaskInput.toP) (ofP := TaskInput.ofP) (.elem .here) (fun _ => rfl) hN he ht (fun _ => rfl) (fun _ _ => rfl),
    struct_elem (F := X.taskInputFields) (toP := TaskInput.toP) (ofP := TaskInput.ofP) (.elem (.elem .here)) (fun _ => rfl) hN he ht (fun _ => rfl) (fun _ _ => rfl),
    struct_elem (F := X.taskInputFields) (toP := TaskInput.toP) (ofP := TaskInput.ofP) (.elem (.elem (.elem .here))) (fun _ => rfl) hN he ht (fun _ => rfl) (fun _ _ => rfl),
    struct_elem (F := X.taskInputFields) (toP := TaskInput.toP) (ofP := TaskInput.ofP) (.elem (.elem (.elem (.elem .here)))) (fun _ => rfl) hN he ht (fun _ => rfl) (fun _ _ => rfl),
    struct_elem (F := X.taskInputFields) (toP := TaskInput.toP) (ofP := TaskInput.ofP) (.elem (.elem (.elem (.elem (.elem .here))))) (fun _ => rfl) hN he ht (fun _ => rfl) (fun _ _ => rfl),
    struct_elem (F := X.taskInputFields) (toP := TaskInput.toP) (ofP := TaskInput.ofP) (.elem (.elem (.elem (.elem (.elem (.elem .here)))))) (fun _ => rfl) hN he ht (fun _ => rfl) (fun _ _ => rfl)⟩

/-- cyclonedx.go:1492-1501 -/
theorem xml_elements_taskOutput :
    Element X.taskOutput [] ["resource", "parameters", "environmentVars", "data", "type", "source", "target", "properties"] (fun (x : TaskOutput) _ => x) ∧
    ElemField X.taskOutput (fun (x : TaskOutput) _ => x) (.ptr "resource" X.resourceReferenceChoice) (fun x => x.resource)
      (fun (x : TaskOutput) v => { x with resource := v }) ∧
    ElemField X.taskOutput (fun (x : TaskOutput) _ => x) (.nlist "parameters" "parameter" true X.parameter) (fun x => x.parameters)
      (fun (x : TaskOutput) v => { x with parameters := v }) ∧
    ElemField X.taskOutput (fun (x : TaskOutput) _ => x) (.slice "environmentVars" X.environmentVariables) (fun x => x.environmentVars)
      (fun (x : TaskOutput) v => { x with environmentVars := v }) ∧
    ElemField X.taskOutput (fun (x : TaskOutput) _ => x) (.ptr "data" X.attachedText) (fun x => x.data)
      (fun (x : TaskOutput) v => { x with data := v }) ∧
    ElemField X.taskOutput (fun (x : TaskOutput) _ => x) (.plain "type" true X.string) (fun x => x.type)
      (fun (x : TaskOutput) v => { x with type := v }) ∧
    ElemField X.taskOutput (fun (x : TaskOutput) _ => x) (.ptr "source" X.resourceReferenceChoice) (fun x => x.source)
      (fun (x : TaskOutput) v => { x with source := v }) ∧
    ElemField X.taskOutput (fun (x : TaskOutput) _ => x) (.ptr "target" X.resourceReferenceChoice) (fun x => x.target)
      (fun (x : TaskOutput) v => { x with target := v }) ∧
    ElemField X.taskOutput (fun (x : TaskOutput) _ => x) (.nlist "properties" "property" true X.property) (fun x => x.properties)
      (fun (x : TaskOutput) v => { x with properties := v }) := by
  have hN : XFields.Named X.taskOutputFields := by
    have : XNames X.taskOutputFields := by unfold X.taskOutputFields; infer_instance
    exact this.named
  have ha : XFields.attrNames X.taskOutputFields |>.Nodup := show ([] : List String).Nodup by decide +kernel
  have he : XFields.elemNames X.taskOutputFields |>.Nodup := show (["resource", "parameters", "environmentVars", "data", "type", "source", "target", "properties"] : List String).Nodup by decide +kernel
  have ht : ∀ x s, (fun (x : TaskOutput) _ => x) x s = TaskOutput.ofP (XFields.setText X.taskOutputFields s (TaskOutput.toP x)) := (fun _ _ => rfl)
  exact ⟨struct_element (F := X.taskOutputFields) (toP := TaskOutput.toP) (ofP := TaskOutput.ofP) (fun _ => rfl) hN ht _ _ rfl rfl,
    struct_elem (F := X.taskOutputFields) (toP := TaskOutput.toP) (ofP := TaskOutput.ofP) .here (fun _ => rfl) hN he ht (fun _ => rfl) (fun _ _ => rfl),
    struct_elem (F := X.taskOutputFields) (toP := TaskOutput.toP) (ofP := TaskOutput.ofP) (.elem .here) (fun _ => rfl) hN he ht (fun _ => rfl) (fun _ _ => rfl),
    struct_elem (F := X.taskOutputFields) (toP := TaskOutput.toP) (ofP := TaskOutput.ofP) (.elem (.elem .here)) (fun _ => rfl) hN he ht (fun _ => rfl) (fun _ _ => rfl),
    struct_elem (F := X.taskOutputFields) (toP := TaskOutput.toP) (ofP := TaskOutput.ofP) (.elem (.elem (.elem .here))) (fun _ => rfl) hN he ht (fun _ => rfl) (fun _ _ => rfl),
    struct_elem (F := X.taskOutputFields) (toP := TaskOutput.toP) (ofP := TaskOutput.ofP) (.elem (.elem (.elem (.elem .here)))) (fun _ => rfl) hN he ht (fun _ => rfl) (fun _ _ => rfl),
    struct_elem (F := X.taskOutputFields) (toP := TaskOutput.toP) (ofP := TaskOutput.ofP) (.elem (.elem (.elem (.elem (.elem .here))))) (fun _ => rfl) hN he ht (fun _ => rfl) (fun _ _ => rfl),
    struct_elem (F := X.taskOutputFields) (toP := TaskOutput.toP) (ofP := TaskOutput.ofP) (.elem (.elem (.elem (.elem (.elem (.elem .here)))))) (fun _ => rfl) hN he ht (fun _ => rfl) (fun _ _ => rfl),
    struct_elem (F := X.taskOutputFields) (toP := TaskOutput.toP) (ofP := TaskOutput.ofP) (.elem (.elem (.elem (.elem (.elem (.elem (.elem .here))))))) (fun _ => rfl) hN he ht (fun _ => rfl) (fun _ _ => rfl)⟩

/-- cyclonedx.go:1477-1480 -/
theorem xml_elements_taskCommand :
    Element X.taskCommand [] ["executed", "properties"] (fun (x : TaskCommand) _ => x) ∧
    ElemField X.taskCommand (fun (x : TaskCommand) _ => x) (.plain "executed" true X.string) (fun x => x.executed)
      (fun (x : TaskCommand) v => { x with executed := v }) ∧
    ElemField X.taskCommand (fun (x : TaskCommand) _ => x) (.nlist "properties" "property" true X.property) (fun x => x.properties)
      (fun (x : TaskCommand) v => { x with properties := v }) := by
  have hN : XFields.Named X.taskCommandFields := by
    have : XNames X.taskCommandFields := by unfold X.taskCommandFields; infer_instance
    exact this.named
  have ha : XFields.attrNames X.taskCommandFields |>.Nodup := show ([] : List String).Nodup by decide +kernel
  have he : XFields.elemNames X.taskCommandFields |>.Nodup := show (["executed", "properties"] : List String).Nodup by decide +kernel
  have ht : ∀ x s, (fun (x : TaskCommand) _ => x) x s = TaskCommand.ofP (XFields.setText X.taskCommandFields s (TaskCommand.toP x)) := (fun _ _ => rfl)
  exact ⟨struct_element (F := X.taskCommandFields) (toP := TaskCommand.toP) (ofP := TaskCommand.ofP) (fun _ => rfl) hN ht _ _ rfl rfl,
    struct_elem (F := X.taskCommandFields) (toP := TaskCommand.toP) (ofP := TaskCommand.ofP) .here (fun _ => rfl) hN he ht (fun _ => rfl) (fun _ _ => rfl),
    struct_elem (F := X.taskCommandFields) (toP := TaskCommand.toP) (ofP := TaskCommand.ofP) (.elem .here) (fun _ => rfl) hN he ht (fun _ => rfl) (fun _ _ => rfl)⟩

/-- cyclonedx.go:1514-1519 -/
theorem xml_elements_taskStep :
    Element X.taskStep [] ["name", "description", "commands", "properties"] (fun (x : TaskStep) _ => x) ∧
    ElemField X.taskStep (fun (x : TaskStep) _ => x) (.plain "name" true X.string) (fun x => x.name)
      (fun (x : TaskStep) v => { x with name := v }) ∧
    ElemField X.taskStep (fun (x : TaskStep) _ => x) (.plain "description" true X.string) (fun x => x.description)
      (fun (x : TaskStep) v => { x with description := v }) ∧
    ElemField X.taskStep (fun (x : TaskStep) _ => x) (.nlist "commands" "command" true X.taskCommand) (fun x => x.commands)
      (fun (x : TaskStep) v => { x with commands := v }) ∧
    ElemField X.taskStep (fun (x : TaskStep) _ => x) (.nlist "properties" "property" true X.property) (fun x => x.properties)
      (fun (x : TaskStep) v => { x with properties := v }) := by
  have hN : XFields.Named X.taskStepFields := by
    have : XNames X.taskStepFields := by unfold X.taskStepFields; infer_instance
    exact this.named
  have ha : XFields.attrNames X.taskStepFields |>.Nodup := show ([] : List String).Nodup by decide +kernel
  have he : XFields.elemNames X.taskStepFields |>.Nodup := show (["name", "description", "commands", "properties"] : List String).Nodup by decide +kernel
  have ht : ∀ x s, (fun (x : TaskStep) _ => x) x s = TaskStep.ofP (XFields.setText X.taskStepFields s (TaskStep.toP x)) := (fun _ _ => rfl)
  exact ⟨struct_element (F := X.taskStepFields) (toP := TaskStep.toP) (ofP := TaskStep.ofP) (fun _ => rfl) hN ht _ _ rfl rfl,
    struct_elem (F := X.taskStepFields) (toP := TaskStep.toP) (ofP := TaskStep.ofP) .here (fun _ => rfl) hN he ht (fun _ => rfl) (fun _ _ => rfl),
    struct_elem (F := X.taskStepFields) (toP := TaskStep.toP) (ofP := TaskStep.ofP) (.elem .here) (fun _ => rfl) hN he ht (fun _ => rfl) (fun _ _ => rfl),
    struct_elem (F := X.taskStepFields) (toP := TaskStep.toP) (ofP := TaskStep.ofP) (.elem (.elem .here)) (fun _ => rfl) hN he ht (fun _ => rfl) (fun _ _ => rfl),
    struct_elem (F := X.taskStepFields) (toP := TaskStep.toP) (ofP := TaskStep.ofP) (.elem (.elem (.elem .here))) (fun _ => rfl) hN he ht (fun _ => rfl) (fun _ _ => rfl)⟩

/-- cyclonedx.go:662-670 -/
theorem xml_elements_event :
    Element X.event [] ["uid", "description", "timeReceived", "data", "source", "target", "properties"] (fun (x : Event) _ => x) ∧
    ElemField X.event (fun (x : Event) _ => x) (.plain "uid" true X.string) (fun x => x.uid)
      (fun (x : Event) v => { x with uid := v }) ∧
    ElemField X.event (fun (x : Event) _ => x) (.plain "description" true X.string) (fun x => x.description)
      (fun (x : Event) v => { x with description := v }) ∧
    ElemField X.event (fun (x : Event) _ => x) (.plain "timeReceived" true X.string) (fun x => x.timeReceived)
      (fun (x : Event) v => { x with timeReceived := v }) ∧
    ElemField X.event (fun (x : Event) _ => x) (.ptr "data" X.attachedText) (fun x => x.data)
      (fun (x : Event) v => { x with data := v }) ∧
    ElemField X.event (fun (x : Event) _ => x) (.ptr "source" X.resourceReferenceChoice) (fun x => x.source)
      (fun (x : Event) v => { x with source := v }) ∧
    ElemField X.event (fun (x : Event) _ => x) (.ptr "target" X.resourceReferenceChoice) (fun x => x.target)
      (fun (x : Event) v => { x with target := v }) ∧
    ElemField X.event (fun (x : Event) _ => x) (.nlist "properties" "property" true X.property) (fun x => x.properties)
      (fun (x : Event) v => { x with properties := v }) := by
  have hN : XFields.Named X.eventFields := by
    have : XNames X.eventFields := by unfold X.eventFields; infer_instance
    exact this.named
  have ha : XFields.attrNames X.eventFields |>.Nodup := show ([] : List String).Nodup by decide +kernel
  have he : XFields.elemNames X.eventFields |>.Nodup := show (["uid", "description", "timeReceived", "data", "source", "target", "properties"] : List String).Nodup by decide +kernel
  have ht : ∀ x s, (fun (x : Event) _ => x) x s = Event.ofP (XFields.setText X.eventFields s (Event.toP x)) := (fun _ _ => rfl)
  exact ⟨struct_element (F := X.eventFields) (toP := Event.toP) (ofP := Event.ofP) (fun _ => rfl) hN ht _ _ rfl rfl,
    struct_elem (F := X.eventFields) (toP := Event.toP) (ofP := Event.ofP) .here (fun _ => rfl) hN he ht (fun _ => rfl) (fun _ _ => rfl),
    struct_elem (F := X.eventFields) (toP := Event.toP) (ofP := Event.ofP) (.elem .here) (fun _ => rfl) hN he ht (fun _ => rfl) (fun _ _ => rfl),
    struct_elem (F := X.eventFields) (toP := Event.toP) (ofP := Event.ofP) (.elem (.elem .here)) (fun _ => rfl) hN he ht (fun _ => rfl) (fun _ _ => rfl),
    struct_elem (F := X.eventFields) (toP := Event.toP) (ofP := Event.ofP) (.elem (.elem (.elem .here))) (fun _ => rfl) hN he ht (fun _ => rfl) (fun _ _ => rfl),
    struct_elem (F := X.eventFields) (toP := Event.toP) (ofP := Event.ofP) (.elem (.elem (.elem (.elem .here)))) (fun _ => rfl) hN he ht (fun _ => rfl) (fun _ _ => rfl),
    struct_elem (F := X.eventFields) (toP := Event.toP) (ofP := Event.ofP) (.elem (.elem (.elem (.elem (.elem .here))))) (fun _ => rfl) hN he ht (fun _ => rfl) (fun _ _ => rfl),
    struct_elem (F := X.eventFields) (toP := Event.toP) (ofP := Event.ofP) (.elem (.elem (.elem (.elem (.elem (.elem .here)))))) (fun _ => rfl) hN he ht (fun _ => rfl) (fun _ _ => rfl)⟩

/-- cyclonedx.go:1536-1540 -/
theorem xml_elements_taskTriggerCondition :
    Element X.taskTriggerCondition [] ["description", "expression", "properties"] (fun (x : TaskTriggerCondition) _ => x) ∧
    ElemField X.taskTriggerCondition (fun (x : TaskTriggerCondition) _ => x) (.plain "description" true X.string) (fun x => x.description)
      (fun (x : TaskTriggerCondition) v => { x with description := v }) ∧
    ElemField X.taskTriggerCondition (fun (x : TaskTriggerCondition) _ => x) (.plain "expression" true X.string) (fun x => x.expression)
      (fun (x : TaskTriggerCondition) v => { x with expression := v }) ∧
    ElemField X.taskTriggerCondition (fun (x : TaskTriggerCondition) _ => x) (.nlist "properties" "property" true X.property) (fun x => x.properties)
      (fun (x : TaskTriggerCondition) v => { x with properties := v }) := by
  have hN : XFields.Named X.taskTriggerConditionFields := by
    have : XNames X.taskTriggerConditionFields := by unfold X.taskTriggerConditionFields; infer_instance
    exact this.named
  have ha : XFields.attrNames X.taskTriggerConditionFields |>.Nodup := show ([] : List String).Nodup by decide +kernel
  have he : XFields.elemNames X.taskTriggerConditionFields |>.Nodup := show (["description", "expression", "properties"] : List String).Nodup by decide +kernel
  have ht : ∀ x s, (fun (x : TaskTriggerCondition) _ => x) x s = TaskTriggerCondition.ofP (XFields.setText X.taskTriggerConditionFields s (TaskTriggerCondition.toP x)) := (fun _ _ => rfl)
  exact ⟨struct_element (F := X.taskTriggerConditionFields) (toP := TaskTriggerCondition.toP) (ofP := TaskTriggerCondition.ofP) (fun _ => rfl) hN ht _ _ rfl rfl,
    struct_elem (F := X.taskTriggerConditionFields) (toP := TaskTriggerCondition.toP) (ofP := TaskTriggerCondition.ofP) .here (fun _ => rfl) hN he ht (fun _ => rfl) (fun _ _ => rfl),
    struct_elem (F := X.taskTriggerConditionFields) (toP := TaskTriggerCondition.toP) (ofP := TaskTriggerCondition.ofP) (.elem .here) (fun _ => rfl) hN he ht (fun _ => rfl) (fun _ _ => rfl),
    struct_elem (F := X.taskTriggerConditionFields) (toP := TaskTriggerCondition.toP) (ofP := TaskTriggerCondition.ofP) (.elem (.elem .here)) (fun _ => rfl) hN he ht (fun _ => rfl) (fun _ _ => rfl)⟩

/-- cyclonedx.go:1521-1534 -/
theorem xml_elements_taskTrigger :
    Element X.taskTrigger ["bom-ref"] ["uid", "name", "description", "resourceReferences", "type", "event", "conditions", "timeActivated", "inputs", "outputs", "properties"] (fun (x : TaskTrigger) _ => x) ∧
    AttrField X.taskTrigger (fun (x : TaskTrigger) _ => x) "bom-ref" false XText.string (fun x => x.bomRef)
      (fun (x : TaskTrigger) v => { x with bomRef := v }) ∧
    ElemField X.taskTrigger (fun (x : TaskTrigger) _ => x) (.plain "uid" true X.string) (fun x => x.uid)
      (fun (x : TaskTrigger) v => { x with uid := v }) ∧
    ElemField X.taskTrigger (fun (x : TaskTrigger) _ => x) (.plain "name" true X.string) (fun x => x.name)
      (fun (x : TaskTrigger) v => { x with name := v }) ∧
    ElemField X.taskTrigger (fun (x : TaskTrigger) _ => x) (.plain "description" true X.string) (fun x => x.description)
      (fun (x : TaskTrigger) v => { x with description := v }) ∧
    ElemField X.taskTrigger (fun (x : TaskTrigger) _ => x) (.nlist "resourceReferences" "resourceReference" true X.resourceReferenceChoice) (fun x => x.resourceReferences)
      (fun (x : TaskTrigger) v => { x with resourceReferences := v }) ∧
    ElemField X.taskTrigger (fun (x : TaskTrigger) _ => x) (.plain "type" true X.string) (fun x => x.type)
      (fun (x : TaskTrigger) v => { x with type := v }) ∧
    ElemField X.taskTrigger (fun (x : TaskTrigger) _ => x) (.ptr "event" X.event) (fun x => x.event)
      (fun (x : TaskTrigger) v => { x with event := v }) ∧
    ElemField X.taskTrigger (fun (x : TaskTrigger) _ => x) (.nlist "conditions" "condition" true X.taskTriggerCondition) (fun x => x.conditions)
      (fun (x : TaskTrigger) v => { x with conditions := v }) ∧
    ElemField X.taskTrigger (fun (x : TaskTrigger) _ => x) (.plain "timeActivated" true X.string) (fun x => x.timeActivated)
      (fun (x : TaskTrigger) v => { x with timeActivated := v }) ∧
    ElemField X.taskTrigger (fun (x : TaskTrigger) _ => x) (.nlist "inputs" "input" true X.taskInput) (fun x => x.inputs)
      (fun (x : TaskTrigger) v => { x with inputs := v }) ∧
    ElemField X.taskTrigger (fun (x : TaskTrigger) _ => x) (.nlist "outputs" "output" true X.taskOutput) (fun x => x.outputs)
      (fun (x : TaskTrigger) v => { x with outputs := v }) ∧
    ElemField X.taskTrigger (fun (x : TaskTrigger) _ => x) (.nlist "properties" "property" true X.property) (fun x => x.properties)
      (fun (x : TaskTrigger) v => { x with properties := v }) := by
  have hN : XFields.Named X.taskTriggerFields := by
    have : XNames X.taskTriggerFields := by unfold X.taskTriggerFields; infer_instance
    exact this.named
  have ha : XFields.attrNames X.taskTriggerFields |>.Nodup := show (["bom-ref"] : List String).Nodup by decide +kernel
  have he : XFields.elemNames X.taskTriggerFields |>.Nodup := show (["uid", "name", "description", "resourceReferences", "type", "event", "conditions", "timeActivated", "inputs", "outputs", "properties"] : List String).Nodup by decide +kernel
  have ht : ∀ x s, (fun (x : TaskTrigger) _ => x) x s = TaskTrigger.ofP (XFields.setText X.taskTriggerFields s (TaskTrigger.toP x)) := (fun _ _ => rfl)
  exact ⟨struct_element (F := X.taskTriggerFields) (toP := TaskTrigger.toP) (ofP := TaskTrigger.ofP) (fun _ => rfl) hN ht _ _ rfl rfl,
    struct_attr (F := X.taskTriggerFields) (toP := TaskTrigger.toP) (ofP := TaskTrigger.ofP) .here (fun _ => rfl) ha ht (fun _ => rfl) (fun _ _ => rfl),
    struct_elem (F := X.taskTriggerFields) (toP := TaskTrigger.toP) (ofP := TaskTrigger.ofP) (.attr .here) (fun _ => rfl) hN he ht (fun _ => rfl) (fun _ _ => rfl),
    struct_elem (F := X.taskTriggerFields) (toP := TaskTrigger.toP) (ofP := TaskTrigger.ofP) (.attr (.elem .here)) (fun _ => rfl) hN he ht (fun _ => rfl) (fun _ _ => rfl),
    struct_elem (F := X.taskTriggerFields) (toP := TaskTrigger.toP) (ofP := TaskTrigger.ofP) (.attr (.elem (.elem .here))) (fun _ => rfl) hN he ht (fun _ => rfl) (fun _ _ => rfl),
    struct_elem (F := X.taskTriggerFields) (toP := TaskTrigger.toP) (ofP := TaskTrigger.ofP) (.attr (.elem (.elem (.elem .here)))) (fun _ => rfl) hN he ht (fun _ => rfl) (fun _ _ => rfl),
    struct_elem (F := X.taskTriggerFields) (toP := TaskTrigger.toP) (ofP := TaskTrigger.ofP) (.attr (.elem (.elem (.elem (.elem .here))))) (fun _ => rfl) hN he ht (fun _ => rfl) (fun _ _ => rfl),
    struct_elem (F := X.taskTriggerFields) (toP := TaskTrigger.toP) (ofP := TaskTrigger.ofP) (.attr (.elem (.elem (.elem (.elem (.elem .here)))))) (fun _ => rfl) hN he ht (fun _ => rfl) (fun _ _ => rfl),
    struct_elem (F := X.taskTriggerFields) (toP := TaskTrigger.toP) (ofP := TaskTrigger.ofP) (.attr (.elem (.elem (.elem (.elem (.elem (.elem .here))))))) (fun _ => rfl) hN he ht (fun _ => rfl) (fun _ _ => rfl),
    struct_elem (F := X.taskTriggerFields) (toP := TaskTrigger.toP) (ofP := TaskTrigger.ofP) (.attr (.elem (.elem (.elem (.elem (.elem (.elem (.elem .here)))))))) (fun _ => rfl) hN he ht (fun _ => rfl) (fun _ _ => rfl),
    struct_elem (F := X.taskTriggerFields) (toP := TaskTrigger.toP) (ofP := TaskTrigger.ofP) (.attr (.elem (.elem (.elem (.elem (.elem (.elem (.elem (.elem .here))))))))) (fun _ => rfl) hN he ht (fun _ => rfl) (fun _ _ => rfl),
    struct_elem (F := X.taskTriggerFields) (toP := TaskTrigger.toP) (ofP := TaskTrigger.ofP) (.attr (.elem (.elem (.elem (.elem (.elem (.elem (.elem (.elem (.elem .here)))))))))) (fun _ => rfl) hN he ht (fun _ => rfl) (fun _ _ => rfl),
    struct_elem (F := X.taskTriggerFields) (toP := TaskTrigger.toP) (ofP := TaskTrigger.ofP) (.attr (.elem (.elem (.elem (.elem (.elem (.elem (.elem (.elem (.elem (.elem .here))))))))))) (fun _ => rfl) hN he ht (fun _ => rfl) (fun _ _ => rfl)⟩

/-- cyclonedx.go:1616-1625 -/
theorem xml_elements_volume :
    Element X.volume [] ["uid", "name", "mode", "path", "sizeAllocated", "persistent", "remote", "properties"] (fun (x : Volume) _ => x) ∧
    ElemField X.volume (fun (x : Volume) _ => x) (.plain "uid" true X.string) (fun x => x.uid)
      (fun (x : Volume) v => { x with uid := v }) ∧
    ElemField X.volume (fun (x : Volume) _ => x) (.plain "name" true X.string) (fun x => x.name)
      (fun (x : Volume) v => { x with name := v }) ∧
    ElemField X.volume (fun (x : Volume) _ => x) (.plain "mode" true X.string) (fun x => x.mode)
      (fun (x : Volume) v => { x with mode := v }) ∧
    ElemField X.volume (fun (x : Volume) _ => x) (.plain "path" true X.string) (fun x => x.path)
      (fun (x : Volume) v => { x with path := v }) ∧
    ElemField X.volume (fun (x : Volume) _ => x) (.plain "sizeAllocated" true X.string) (fun x => x.sizeAllocated)
      (fun (x : Volume) v => { x with sizeAllocated := v }) ∧
    ElemField X.volume (fun (x : Volume) _ => x) (.ptr "persistent" X.bool) (fun x => x.persistent)
      (fun (x : Volume) v => { x with persistent := v }) ∧
    ElemField X.volume (fun (x : Volume) _ => x) (.ptr "remote" X.bool) (fun x => x.remote)
      (fun (x : Volume) v => { x with remote := v }) ∧
    ElemField X.volume (fun (x : Volume) _ => x) (.nlist "properties" "property" true X.property) (fun x => x.properties)
      (fun (x : Volume) v => { x with properties := v }) := by
  have hN : XFields.Named X.volumeFields := by
    have : XNames X.volumeFields := by unfold X.volumeFields; infer_instance
    exact this.named
  have ha : XFields.attrNames X.volumeFields |>.Nodup := show ([] : List String).Nodup by decide +kernel
  have he : XFields.elemNames X.volumeFields |>.Nodup := show (["uid", "name", "mode", "path", "sizeAllocated", "persistent", "remote", "properties"] : List String).Nodup by decide +kernel
  have ht : ∀ x s, (fun (x : Volume) _ => x) x s = Volume.ofP (XFields.setText X.volumeFields s (Volume.toP x)) := (fun _ _ => rfl)
  exact ⟨struct_element (F := X.volumeFields) (toP := Volume.toP) (ofP := Volume.ofP) (fun _ => rfl) hN ht _ _ rfl rfl,
    struct_elem (F := X.volumeFields) (toP := Volume.toP) (ofP := Volume.ofP) .here (fun _ => rfl) hN he ht (fun _ => rfl) (fun _ _ => rfl),
    struct_elem (F := X.volumeFields) (toP := Volume.toP) (ofP := Volume.ofP) (.elem .here) (fun _ => rfl) hN he ht (fun _ => rfl) (fun _ _ => rfl),
    struct_elem (F := X.volumeFields) (toP := Volume.toP) (ofP := Volume.ofP) (.elem (.elem .here)) (fun _ => rfl) hN he ht (fun _ => rfl) (fun _ _ => rfl),
    struct_elem (F := X.volumeFields) (toP := Volume.toP) (ofP := Volume.ofP) (.elem (.elem (.elem .here))) (fun _ => rfl) hN he ht (fun _ => rfl) (fun _ _ => rfl),
    struct_elem (F := X.volumeFields) (toP := Volume.toP) (ofP := Volume.ofP) (.elem (.elem (.elem (.elem .here)))) (fun _ => rfl) hN he ht (fun _ => rfl) (fun _ _ => rfl),
    struct_elem (F := X.volumeFields) (toP := Volume.toP) (ofP := Volume.ofP) (.elem (.elem (.elem (.elem (.elem .here))))) (fun _ => rfl) hN he ht (fun _ => rfl) (fun _ _ => rfl),
    struct_elem (F := X.volumeFields) (toP := Volume.toP) (ofP := Volume.ofP) (.elem (.elem (.elem (.elem (.elem (.elem .here)))))) (fun _ => rfl) hN he ht (fun _ => rfl) (fun _ _ => rfl),
    struct_elem (F := X.volumeFields) (toP := Volume.toP) (ofP := Volume.ofP) (.elem (.elem (.elem (.elem (.elem (.elem (.elem .here))))))) (fun _ => rfl) hN he ht (fun _ => rfl) (fun _ _ => rfl)⟩

/-- cyclonedx.go:1568-1581 -/
theorem xml_elements_taskWorkspace :
    Element X.taskWorkspace ["bom-ref"] ["uid", "name", "aliases", "description", "resourceReferences", "accessMode", "mountPath", "managedDataType", "volumeRequest", "volume", "properties"] (fun (x : TaskWorkspace) _ => x) ∧
    AttrField X.taskWorkspace (fun (x : TaskWorkspace) _ => x) "bom-ref" false XText.string (fun x => x.bomRef)
      (fun (x : TaskWorkspace) v => { x with bomRef := v }) ∧
    ElemField X.taskWorkspace (fun (x : TaskWorkspace) _ => x) (.plain "uid" true X.string) (fun x => x.uid)
      (fun (x : TaskWorkspace) v => { x with uid := v }) ∧
    ElemField X.taskWorkspace (fun (x : TaskWorkspace) _ => x) (.plain "name" true X.string) (fun x => x.name)
      (fun (x : TaskWorkspace) v => { x with name := v }) ∧
    ElemField X.taskWorkspace (fun (x : TaskWorkspace) _ => x) (.nlist "aliases" "alias" true X.string) (fun x => x.aliases)
      (fun (x : TaskWorkspace) v => { x with aliases := v }) ∧
    ElemField X.taskWorkspace (fun (x : TaskWorkspace) _ => x) (.plain "description" true X.string) (fun x => x.description)
      (fun (x : TaskWorkspace) v => { x with description := v }) ∧
    ElemField X.taskWorkspace (fun (x : TaskWorkspace) _ => x) (.nlist "resourceReferences" "resourceReference" true X.resourceReferenceChoice) (fun x => x.resourceReferences)
      (fun (x : TaskWorkspace) v => { x with resourceReferences := v }) ∧
    ElemField X.taskWorkspace (fun (x : TaskWorkspace) _ => x) (.plain "accessMode" true X.string) (fun x => x.accessMode)
      (fun (x : TaskWorkspace) v => { x with accessMode := v }) ∧
    ElemField X.taskWorkspace (fun (x : TaskWorkspace) _ => x) (.plain "mountPath" true X.string) (fun x => x.mountPath)
      (fun (x : TaskWorkspace) v => { x with mountPath := v }) ∧
    ElemField X.taskWorkspace (fun (x : TaskWorkspace) _ => x) (.plain "managedDataType" true X.string) (fun x => x.managedDataType)
      (fun (x : TaskWorkspace) v => { x with managedDataType := v }) ∧
    ElemField X.taskWorkspace (fun (x : TaskWorkspace) _ => x) (.plain "volumeRequest" true X.string) (fun x => x.volumeRequest)
      (fun (x : TaskWorkspace) v => { x with volumeRequest := v }) ∧
    ElemField X.taskWorkspace (fun (x : TaskWorkspace) _ => x) (.ptr "volume" X.volume) (fun x => x.volume)
      (fun (x : TaskWorkspace) v => { x with volume := v }) ∧
    ElemField X.taskWorkspace (fun (x : TaskWorkspace) _ => x) (.nlist "properties" "property" true X.property) (fun x => x.properties)
      (fun (x : TaskWorkspace) v => { x with properties := v }) := by
  have hN : XFields.Named X.taskWorkspaceFields := by
    have : XNames X.taskWorkspaceFields := by unfold X.taskWorkspaceFields; infer_instance
    exact this.named
  have ha : XFields.attrNames X.taskWorkspaceFields |>.Nodup := show (["bom-ref"] : List String).Nodup by decide +kernel
  have he : XFields.elemNames X.taskWorkspaceFields |>.Nodup := show (["uid", "name", "aliases", "description", "resourceReferences", "accessMode", "mountPath", "managedDataType", "volumeRequest", "volume", "properties"] : List String).Nodup by decide +kernel
  have ht : ∀ x s, (fun (x : TaskWorkspace) _ => x) x s = TaskWorkspace.ofP (XFields.setText X.taskWorkspaceFields s (TaskWorkspace.toP x)) := (fun _ _ => rfl)
  exact ⟨struct_element (F := X.taskWorkspaceFields) (toP := TaskWorkspace.toP) (ofP := TaskWorkspace.ofP) (fun _ => rfl) hN ht _ _ rfl rfl,
    struct_attr (F := X.taskWorkspaceFields) (toP := TaskWorkspace.toP) (ofP := TaskWorkspace.ofP) .here (fun _ => rfl) ha ht (fun _ => rfl) (fun _ _ => rfl),
    struct_elem (F := X.taskWorkspaceFields) (toP := TaskWorkspace.toP) (ofP := TaskWorkspace.ofP) (.attr .here) (fun _ => rfl) hN he ht (fun _ => rfl) (fun _ _ => rfl),
    struct_elem (F := X.taskWorkspaceFields) (toP := TaskWorkspace.toP) (ofP := TaskWorkspace.ofP) (.attr (.elem .here)) (fun _ => rfl) hN he ht (fun _ => rfl) (fun _ _ => rfl),
    struct_elem (F := X.taskWorkspaceFields) (toP := TaskWorkspace.toP) (ofP := TaskWorkspace.ofP) (.attr (.elem (.elem .here))) (fun _ => rfl) hN he ht (fun _ => rfl) (fun _ _ => rfl),
    struct_elem (F := X.taskWorkspaceFields) (toP := TaskWorkspace.toP) (ofP := TaskWorkspace.ofP) (.attr (.elem (.elem (.elem .here)))) (fun _ => rfl) hN he ht (fun _ => rfl) (fun _ _ => rfl),
    struct_elem (F := X.taskWorkspaceFields) (toP := TaskWorkspace.toP) (ofP := TaskWorkspace.ofP) (.attr (.elem (.elem (.elem (.elem .here))))) (fun _ => rfl) hN he ht (fun _ => rfl) (fun _ _ => rfl),
    struct_elem (F := X.taskWorkspaceFields) (toP := TaskWorkspace.toP) (ofP := TaskWorkspace.ofP) (.attr (.elem (.elem (.elem (.elem (.elem .here)))))) (fun _ => rfl) hN he ht (fun _ => rfl) (fun _ _ => rfl),
    struct_elem (F := X.taskWorkspaceFields) (toP := TaskWorkspace.toP) (ofP := TaskWorkspace.ofP) (.attr (.elem (.elem (.elem (.elem (.elem (.elem .here))))))) (fun _ => rfl) hN he ht (fun _ => rfl) (fun _ _ => rfl),
    struct_elem (F := X.taskWorkspaceFields) (toP := TaskWorkspace.toP) (ofP := TaskWorkspace.ofP) (.attr (.elem (.elem (.elem (.elem (.elem (.elem (.elem .here)))))))) (fun _ => rfl) hN he ht (fun _ => rfl) (fun _ _ => rfl),
    struct_elem (F := X.taskWorkspaceFields) (toP := TaskWorkspace.toP) (ofP := TaskWorkspace.ofP) (.attr (.elem (.elem (.elem (.elem (.elem (.elem (.elem (.elem .here))))))))) (fun _ => rfl) hN he ht (fun _ => rfl) (fun _ _ => rfl),
    struct_elem (F := X.taskWorkspaceFields) (toP := TaskWorkspace.toP) (ofP := TaskWorkspace.ofP) (.attr (.elem (.elem (.elem (.elem (.elem (.elem (.elem (.elem (.elem .here)))))))))) (fun _ => rfl) hN he ht (fun _ => rfl) (fun _ _ => rfl),
    struct_elem (F := X.taskWorkspaceFields) (toP := TaskWorkspace.toP) (ofP := TaskWorkspace.ofP) (.attr (.elem (.elem (.elem (.elem (.elem (.elem (.elem (.elem (.elem (.elem .here))))))))))) (fun _ => rfl) hN he ht (fun _ => rfl) (fun _ _ => rfl)⟩

/-- cyclonedx.go:1459-1475 -/
theorem xml_elements_task :
    Element X.task ["bom-ref"] ["uid", "name", "description", "properties", "resourceReferences", "taskTypes", "trigger", "steps", "inputs", "outputs", "timeStart", "timeEnd", "workspaces", "runtimeTopology"] (fun (x : Task) _ => x) ∧
    AttrField X.task (fun (x : Task) _ => x) "bom-ref" false XText.string (fun x => x.bomRef)
      (fun (x : Task) v => { x with bomRef := v }) ∧
    ElemField X.task (fun (x : Task) _ => x) (.plain "uid" true X.string) (fun x => x.uid)
      (fun (x : Task) v => { x with uid := v }) ∧
    ElemField X.task (fun (x : Task) _ => x) (.plain "name" true X.string) (fun x => x.name)
      (fun (x : Task) v => { x with name := v }) ∧
    ElemField X.task (fun (x : Task) _ => x) (.plain "description" true X.string) (fun x => x.description)
      (fun (x : Task) v => { x with description := v }) ∧
    ElemField X.task (fun (x : Task) _ => x) (.nlist "properties" "property" true X.property) (fun x => x.properties)
      (fun (x : Task) v => { x with properties := v }) ∧
    ElemField X.task (fun (x : Task) _ => x) (.nlist "resourceReferences" "resourceReference" true X.resourceReferenceChoice) (fun x => x.resourceReferences)
      (fun (x : Task) v => { x with resourceReferences := v }) ∧
    ElemField X.task (fun (x : Task) _ => x) (.nlist "taskTypes" "taskType" true X.string) (fun x => x.taskTypes)
      (fun (x : Task) v => { x with taskTypes := v }) ∧
    ElemField X.task (fun (x : Task) _ => x) (.ptr "trigger" X.taskTrigger) (fun x => x.trigger)
      (fun (x : Task) v => { x with trigger := v }) ∧
    ElemField X.task (fun (x : Task) _ => x) (.nlist "steps" "step" true X.taskStep) (fun x => x.steps)
      (fun (x : Task) v => { x with steps := v }) ∧
    ElemField X.task (fun (x : Task) _ => x) (.nlist "inputs" "input" true X.taskInput) (fun x => x.inputs)
      (fun (x : Task) v => { x with inputs := v }) ∧
    ElemField X.task (fun (x : Task) _ => x) (.nlist "outputs" "output" true X.taskOutput) (fun x => x.outputs)
      (fun (x : Task) v => { x with outputs := v }) ∧
    ElemField X.task (fun (x : Task) _ => x) (.plain "timeStart" true X.string) (fun x => x.timeStart)
      (fun (x : Task) v => { x with timeStart := v }) ∧
    ElemField X.task (fun (x : Task) _ => x) (.plain "timeEnd" true X.string) (fun x => x.timeEnd)
      (fun (x : Task) v => { x with timeEnd := v }) ∧
    ElemField X.task (fun (x : Task) _ => x) (.nlist "workspaces" "workspace" true X.taskWorkspace) (fun x => x.workspaces)
      (fun (x : Task) v => { x with workspaces := v }) ∧
    ElemField X.task (fun (x : Task) _ => x) (.nlist "runtimeTopology" "dependency" true X.dependency) (fun x => x.runtimeTopology)
      (fun (x : Task) v => { x with runtimeTopology := v }) := by
  have hN : XFields.Named X.taskFields := by
    have : XNames X.taskFields := by unfold X.taskFields; infer_instance
    exact this.named
  have ha : XFields.attrNames X.taskFields |>.Nodup := show (["bom-ref"] : List String).Nodup by decide +kernel
  have he : XFields.elemNames X.taskFields |>.Nodup := show (["uid", "name", "description", "properties", "resourceReferences", "taskTypes", "trigger", "steps", "inputs", "outputs", "timeStart", "timeEnd", "workspaces", "runtimeTopology"] : List String).Nodup by decide +kernel
  have ht : ∀ x s, (fun (x : Task) _ => x) x s = Task.ofP (XFields.setText X.taskFields s (Task.toP x)) := (fun _ _ => rfl)
  exact ⟨struct_element (F := X.taskFields) (toP := Task.toP) (ofP := Task.ofP) (fun _ => rfl) hN ht _ _ rfl rfl,
    struct_attr (F := X.taskFields) (toP := Task.toP) (ofP := Task.ofP) .here (fun _ => rfl) ha ht (fun _ => rfl) (fun _ _ => rfl),
    struct_elem (F := X.taskFields) (toP := Task.toP) (ofP := Task.ofP) (.attr .here) (fun _ => rfl) hN he ht (fun _ => rfl) (fun _ _ => rfl),
    struct_elem (F := X.taskFields) (toP := Task.toP) (ofP := Task.ofP) (.attr (.elem .here)) (fun _ => rfl) hN he ht (fun _ => rfl) (fun _ _ => rfl),
    struct_elem (F := X.taskFields) (toP := Task.toP) (ofP := Task.ofP) (.attr (.elem (.elem .here))) (fun _ => rfl) hN he ht (fun _ => rfl) (fun _ _ => rfl),
    struct_elem (F := X.taskFields) (toP := Task.toP) (ofP := Task.ofP) (.attr (.elem (.elem (.elem .here)))) (fun _ => rfl) hN he ht (fun _ => rfl) (fun _ _ => rfl),
    struct_elem (F := X.taskFields) (toP := Task.toP) (ofP := Task.ofP) (.attr (.elem (.elem (.elem (.elem .here))))) (fun _ => rfl) hN he ht (fun _ => rfl) (fun _ _ => rfl),
    struct_elem (F := X.taskFields) (toP := Task.toP) (ofP := Task.ofP) (.attr (.elem (.elem (.elem (.elem (.elem .here)))))) (fun _ => rfl) hN he ht (fun _ => rfl) (fun _ _ => rfl),
    struct_elem (F := X.taskFields) (toP := Task.toP) (ofP := Task.ofP) (.attr (.elem (.elem (.elem (.elem (.elem (.elem .here))))))) (fun _ => rfl) hN he ht (fun _ => rfl) (fun _ _ => rfl),
    struct_elem (F := X.taskFields) (toP := Task.toP) (ofP := Task.ofP) (.attr (.elem (.elem (.elem (.elem (.elem (.elem (.elem .here)))))))) (fun _ => rfl) hN he ht (fun _ => rfl) (fun _ _ => rfl),
    struct_elem (F := X.taskFields) (toP := Task.toP) (ofP := Task.ofP) (.attr (.elem (.elem (.elem (.elem (.elem (.elem (.elem (.elem .here))))))))) (fun _ => rfl) hN he ht (fun _ => rfl) (fun _ _ => rfl),
    struct_elem (F := X.taskFields) (toP := Task.toP) (ofP := Task.ofP) (.attr (.elem (.elem (.elem (.elem (.elem (.elem (.elem (.elem (.elem .here)))))))))) (fun _ => rfl) hN he ht (fun _ => rfl) (fun _ _ => rfl),
    struct_elem (F := X.taskFields) (toP := Task.toP) (ofP := Task.ofP) (.attr (.elem (.elem (.elem (.elem (.elem (.elem (.elem (.elem (.elem (.elem .here))))))))))) (fun _ => rfl) hN he ht (fun _ => rfl) (fun _ _ => rfl),
    struct_elem (F := X.taskFields) (toP := Task.toP) (ofP := Task.ofP) (.attr (.elem (.elem (.elem (.elem (.elem (.elem (.elem (.elem (.elem (.elem (.elem .here)))))))))))) (fun _ => rfl) hN he ht (fun _ => rfl) (fun _ _ => rfl),
    struct_elem (F := X.taskFields) (toP := Task.toP) (ofP := Task.ofP) (.attr (.elem (.elem (.elem (.elem (.elem (.elem (.elem (.elem (.elem (.elem (.elem (.elem .here))))))))))))) (fun _ => rfl) hN he ht (fun _ => rfl) (fun _ _ => rfl),
    struct_elem (F := X.taskFields) (toP := Task.toP) (ofP := Task.ofP) (.attr (.elem (.elem (.elem (.elem (.elem (.elem (.elem (.elem (.elem (.elem (.elem (.elem (.elem .here)))))))))))))) (fun _ => rfl) hN he ht (fun _ => rfl) (fun _ _ => rfl)⟩

/-- cyclonedx.go:1689-1707 -/
theorem xml_elements_workflow :
    Element X.workflow ["bom-ref"] ["uid", "name", "description", "resourceReferences", "tasks", "taskDependencies", "taskTypes", "trigger", "steps", "inputs", "outputs", "timeStart", "timeEnd", "workspaces", "runtimeTopology", "properties"] (fun (x : Workflow) _ => x) ∧
    AttrField X.workflow (fun (x : Workflow) _ => x) "bom-ref" false XText.string (fun x => x.bomRef)
      (fun (x : Workflow) v => { x with bomRef := v }) ∧
    ElemField X.workflow (fun (x : Workflow) _ => x) (.plain "uid" true X.string) (fun x => x.uid)
      (fun (x : Workflow) v => { x with uid := v }) ∧
    ElemField X.workflow (fun (x : Workflow) _ => x) (.plain "name" true X.string) (fun x => x.name)
      (fun (x : Workflow) v => { x with name := v }) ∧
    ElemField X.workflow (fun (x : Workflow) _ => x) (.plain "description" true X.string) (fun x => x.description)
      (fun (x : Workflow) v => { x with description := v }) ∧
    ElemField X.workflow (fun (x : Workflow) _ => x) (.nlist "resourceReferences" "resourceReference" true X.resourceReferenceChoice) (fun x => x.resourceReferences)
      (fun (x : Workflow) v => { x with resourceReferences := v }) ∧
    ElemField X.workflow (fun (x : Workflow) _ => x) (.nlist "tasks" "task" true X.task) (fun x => x.tasks)
      (fun (x : Workflow) v => { x with tasks := v }) ∧
    ElemField X.workflow (fun (x : Workflow) _ => x) (.nlist "taskDependencies" "dependency" false X.dependency) (fun x => x.taskDependencies)
      (fun (x : Workflow) v => { x with taskDependencies := v }) ∧
    ElemField X.workflow (fun (x : Workflow) _ => x) (.nlist "taskTypes" "taskType" true X.string) (fun x => x.taskTypes)
      (fun (x : Workflow) v => { x with taskTypes := v }) ∧
    ElemField X.workflow (fun (x : Workflow) _ => x) (.ptr "trigger" X.taskTrigger) (fun x => x.trigger)
      (fun (x : Workflow) v => { x with trigger := v }) ∧
    ElemField X.workflow (fun (x : Workflow) _ => x) (.nlist "steps" "step" true X.taskStep) (fun x => x.steps)
      (fun (x : Workflow) v => { x with steps := v }) ∧
    ElemField X.workflow (fun (x : Workflow) _ => x) (.nlist "inputs" "input" true X.taskInput) (fun x => x.inputs)
      (fun (x : Workflow) v => { x with inputs := v }) ∧
    ElemField X.workflow (fun (x : Workflow) _ => x) (.nlist "outputs" "output" true X.taskOutput) (fun x => x.outputs)
      (fun (x : Workflow) v => { x with outputs := v }) ∧
    ElemField X.workflow (fun (x : Workflow) _ => x) (.plain "timeStart" true X.string) (fun x => x.timeStart)
      (fun (x : Workflow) v => { x with timeStart := v }) ∧
    ElemField X.workflow (fun (x : Workflow) _ => x) (.plain "timeEnd" true X.string) (fun x => x.timeEnd)
      (fun (x : Workflow) v => { x with timeEnd := v }) ∧
    ElemField X.workflow (fun (x : Workflow) _ => x) (.nlist "workspaces" "workspace" true X.taskWorkspace) (fun x => x.workspaces)
      (fun (x : Workflow) v => { x with workspaces := v }) ∧
    ElemField X.workflow (fun (x : Workflow) _ => x) (.nlist "runtimeTopology" "dependency" true X.dependency) (fun x => x.runtimeTopology)
      (fun (x : Workflow) v => { x with runtimeTopology := v }) ∧
    ElemField X.workflow (fun (x : Workflow) _ => x) (.nlist "properties" "property" true X.property) (fun x => x.properties)
      (fun (x : Workflow) v => { x with properties := v }) := by
  have hN : XFields.Named X.workflowFields := by
    have : XNames X.workflowFields := by unfold X.workflowFields; infer_instance
    exact this.named
  have ha : XFields.attrNames X.workflowFields |>.Nodup := show (["bom-ref"] : List String).Nodup by decide +kernel
  have he : XFields.elemNames X.workflowFields |>.Nodup := show (["uid", "name", "description", "resourceReferences", "tasks", "taskDependencies", "taskTypes", "trigger", "steps", "inputs", "outputs", "timeStart", "timeEnd", "workspaces", "runtimeTopology", "properties"] : List String).Nodup by decide +kernel
  have ht : ∀ x s, (fun (x : Workflow) _ => x) x s = Workflow.ofP (XFields.setText X.workflowFields s (Workflow.toP x)) := (fun _ _ => rfl)
  exact ⟨struct_element (F := X.workflowFields) (toP := Workflow.toP) (ofP := Workflow.ofP) (fun _ => rfl) hN ht _ _ rfl rfl,
    struct_attr (F := X.workflowFields) (toP := Workflow.toP) (ofP := Workflow.ofP) .here (fun _ => rfl) ha ht (fun _ => rfl) (fun _ _ => rfl),
    struct_elem (F := X.workflowFields) (toP := Workflow.toP) (ofP := Workflow.ofP) (.attr .here) (fun _ => rfl) hN he ht (fun _ => rfl) (fun _ _ => rfl),
    struct_elem (F := X.workflowFields) (toP := Workflow.toP) (ofP := Workflow.ofP) (.attr (.elem .here)) (fun _ => rfl) hN he ht (fun _ => rfl) (fun _ _ => rfl),
    struct_elem (F := X.workflowFields) (toP := Workflow.toP) (ofP := Workflow.ofP) (.attr (.elem (.elem .here))) (fun _ => rfl) hN he ht (fun _ => rfl) (fun _ _ => rfl),
    struct_elem (F := X.workflowFields) (toP := Workflow.toP) (ofP := Workflow.ofP) (.attr (.elem (.elem (.elem .here)))) (fun _ => rfl) hN he ht (fun _ => rfl) (fun _ _ => rfl),
    struct_elem (F := X.workflowFields) (toP := Workflow.toP) (ofP := Workflow.ofP) (.attr (.elem (.elem (.elem (.elem .here))))) (fun _ => rfl) hN he ht (fun _ => rfl) (fun _ _ => rfl),
    struct_elem (F := X.workflowFields) (toP := Workflow.toP) (ofP := Workflow.ofP) (.attr (.elem (.elem (.elem (.elem (.elem .here)))))) (fun _ => rfl) hN he ht (fun _ => rfl) (fun _ _ => rfl),
    struct_elem (F := X.workflowFields) (toP := Workflow.toP) (ofP := Workflow.ofP) (.attr (.elem (.elem (.elem (.elem (.elem (.elem .here))))))) (fun _ => rfl) hN he ht (fun _ => rfl) (fun _ _ => rfl),
    struct_elem (F := X.workflowFields) (toP := Workflow.toP) (ofP := Workflow.ofP) (.attr (.elem (.elem (.elem (.elem (.elem (.elem (.elem .here)))))))) (fun _ => rfl) hN he ht (fun _ => rfl) (fun _ _ => rfl),
    struct_elem (F := X.workflowFields) (toP := Workflow.toP) (ofP := Workflow.ofP) (.attr (.elem (.elem (.elem (.elem (.elem (.elem (.elem (.elem .here))))))))) (fun _ => rfl) hN he ht (fun _ => rfl) (fun _ _ => rfl),
    struct_elem (F := X.workflowFields) (toP := Workflow.toP) (ofP := Workflow.ofP) (.attr (.elem (.elem (.elem (.elem (.elem (.elem (.elem (.elem (.elem .here)))))))))) (fun _ => rfl) hN he ht (fun _ => rfl) (fun _ _ => rfl),
    struct_elem (F := X.workflowFields) (toP := Workflow.toP) (ofP := Workflow.ofP) (.attr (.elem (.elem (.elem (.elem (.elem (.elem (.elem (.elem (.elem (.elem .here))))))))))) (fun _ => rfl) hN he ht (fun _ => rfl) (fun _ _ => rfl),
    struct_elem (F := X.workflowFields) (toP := Workflow.toP) (ofP := Workflow.ofP) (.attr (.elem (.elem (.elem (.elem (.elem (.elem (.elem (.elem (.elem (.elem (.elem .here)))))))))))) (fun _ => rfl) hN he ht (fun _ => rfl) (fun _ _ => rfl),
    struct_elem (F := X.workflowFields) (toP := Workflow.toP) (ofP := Workflow.ofP) (.attr (.elem (.elem (.elem (.elem (.elem (.elem (.elem (.elem (.elem (.elem (.elem (.elem .here))))))))))))) (fun _ => rfl) hN he ht (fun _ => rfl) (fun _ _ => rfl),
    struct_elem (F := X.workflowFields) (toP := Workflow.toP) (ofP := Workflow.ofP) (.attr (.elem (.elem (.elem (.elem (.elem (.elem (.elem (.elem (.elem (.elem (.elem (.elem (.elem .here)))))))))))))) (fun _ => rfl) hN he ht (fun _ => rfl) (fun _ _ => rfl),
    struct_elem (F := X.workflowFields) (toP := Workflow.toP) (ofP := Workflow.ofP) (.attr (.elem (.elem (.elem (.elem (.elem (.elem (.elem (.elem (.elem (.elem (.elem (.elem (.elem (.elem .here))))))))))))))) (fun _ => rfl) hN he ht (fun _ => rfl) (fun _ _ => rfl),
    struct_elem (F := X.workflowFields) (toP := Workflow.toP) (ofP := Workflow.ofP) (.attr (.elem (.elem (.elem (.elem (.elem (.elem (.elem (.elem (.elem (.elem (.elem (.elem (.elem (.elem (.elem .here)))))))))))))))) (fun _ => rfl) hN he ht (fun _ => rfl) (fun _ _ => rfl)⟩

/-- cyclonedx.go:800-806 -/
theorem xml_elements_formula :
    Element X.formula ["bom-ref"] ["components", "services", "workflows", "properties"] (fun (x : Formula) _ => x) ∧
    AttrField X.formula (fun (x : Formula) _ => x) "bom-ref" false XText.string (fun x => x.bomRef)
      (fun (x : Formula) v => { x with bomRef := v }) ∧
    ElemField X.formula (fun (x : Formula) _ => x) (.nlist "components" "component" true X.component) (fun x => x.components)
      (fun (x : Formula) v => { x with components := v }) ∧
    ElemField X.formula (fun (x : Formula) _ => x) (.nlist "services" "service" true X.service) (fun x => x.services)
      (fun (x : Formula) v => { x with services := v }) ∧
    ElemField X.formula (fun (x : Formula) _ => x) (.nlist "workflows" "workflow" true X.workflow) (fun x => x.workflows)
      (fun (x : Formula) v => { x with workflows := v }) ∧
    ElemField X.formula (fun (x : Formula) _ => x) (.nlist "properties" "property" true X.property) (fun x => x.properties)
      (fun (x : Formula) v => { x with properties := v }) := by
  have hN : XFields.Named X.formulaFields := by
    have : XNames X.formulaFields := by unfold X.formulaFields; infer_instance
    exact this.named
  have ha : XFields.attrNames X.formulaFields |>.Nodup := show (["bom-ref"] : List String).Nodup by decide +kernel
  have he : XFields.elemNames X.formulaFields |>.Nodup := show (["components", "services", "workflows", "properties"] : List String).Nodup by decide +kernel
  have ht : ∀ x s, (fun (x : Formula) _ => x) x s = Formula.ofP (XFields.setText X.formulaFields s (Formula.toP x)) := (fun _ _ => rfl)
  exact ⟨struct_element (F := X.formulaFields) (toP := Formula.toP) (ofP := Formula.ofP) (fun _ => rfl) hN ht _ _ rfl rfl,
    struct_attr (F := X.formulaFields) (toP := Formula.toP) (ofP := Formula.ofP) .here (fun _ => rfl) ha ht (fun _ => rfl) (fun _ _ => rfl),
    struct_elem (F := X.formulaFields) (toP := Formula.toP) (ofP := Formula.ofP) (.attr .here) (fun _ => rfl) hN he ht (fun _ => rfl) (fun _ _ => rfl),
    struct_elem (F := X.formulaFields) (toP := Formula.toP) (ofP := Formula.ofP) (.attr (.elem .here)) (fun _ => rfl) hN he ht (fun _ => rfl) (fun _ _ => rfl),
    struct_elem (F := X.formulaFields) (toP := Formula.toP) (ofP := Formula.ofP) (.attr (.elem (.elem .here))) (fun _ => rfl) hN he ht (fun _ => rfl) (fun _ _ => rfl),
    struct_elem (F := X.formulaFields) (toP := Formula.toP) (ofP := Formula.ofP) (.attr (.elem (.elem (.elem .here)))) (fun _ => rfl) hN he ht (fun _ => rfl) (fun _ _ => rfl)⟩

/-- cyclonedx.go:1006-1010 -/
theorem xml_elements_lifecycle :
    Element X.lifecycle [] ["name", "phase", "description"] (fun (x : Lifecycle) _ => x) ∧
    ElemField X.lifecycle (fun (x : Lifecycle) _ => x) (.plain "name" true X.string) (fun x => x.name)
      (fun (x : Lifecycle) v => { x with name := v }) ∧
    ElemField X.lifecycle (fun (x : Lifecycle) _ => x) (.plain "phase" true X.string) (fun x => x.phase)
      (fun (x : Lifecycle) v => { x with phase := v }) ∧
    ElemField X.lifecycle (fun (x : Lifecycle) _ => x) (.plain "description" true X.string) (fun x => x.description)
      (fun (x : Lifecycle) v => { x with description := v }) := by
  have hN : XFields.Named X.lifecycleFields := by
    have : XNames X.lifecycleFields := by unfold X.lifecycleFields; infer_instance
    exact this.named
  have ha : XFields.attrNames X.lifecycleFields |>.Nodup := show ([] : List String).Nodup by decide +kernel
  have he : XFields.elemNames X.lifecycleFields |>.Nodup := show (["name", "phase", "description"] : List String).Nodup by decide +kernel
  have ht : ∀ x s, (fun (x : Lifecycle) _ => x) x s = Lifecycle.ofP (XFields.setText X.lifecycleFields s (Lifecycle.toP x)) := (fun _ _ => rfl)
  exact ⟨struct_element (F := X.lifecycleFields) (toP := Lifecycle.toP) (ofP := Lifecycle.ofP) (fun _ => rfl) hN ht _ _ rfl rfl,
    struct_elem (F := X.lifecycleFields) (toP := Lifecycle.toP) (ofP := Lifecycle.ofP) .here (fun _ => rfl) hN he ht (fun _ => rfl) (fun _ _ => rfl),
    struct_elem (F := X.lifecycleFields) (toP := Lifecycle.toP) (ofP := Lifecycle.ofP) (.elem .here) (fun _ => rfl) hN he ht (fun _ => rfl) (fun _ _ => rfl),
    struct_elem (F := X.lifecycleFields) (toP := Lifecycle.toP) (ofP := Lifecycle.ofP) (.elem (.elem .here)) (fun _ => rfl) hN he ht (fun _ => rfl) (fun _ _ => rfl)⟩

/-- cyclonedx.go:1594-1600 -/
theorem xml_elements_tool :
    Element X.tool [] ["vendor", "name", "version", "hashes", "externalReferences"] (fun (x : Tool) _ => x) ∧
    ElemField X.tool (fun (x : Tool) _ => x) (.plain "vendor" true X.string) (fun x => x.vendor)
      (fun (x : Tool) v => { x with vendor := v }) ∧
    ElemField X.tool (fun (x : Tool) _ => x) (.plain "name" false X.string) (fun x => x.name)
      (fun (x : Tool) v => { x with name := v }) ∧
    ElemField X.tool (fun (x : Tool) _ => x) (.plain "version" true X.string) (fun x => x.version)
      (fun (x : Tool) v => { x with version := v }) ∧
    ElemField X.tool (fun (x : Tool) _ => x) (.nlist "hashes" "hash" true X.hash) (fun x => x.hashes)
      (fun (x : Tool) v => { x with hashes := v }) ∧
    ElemField X.tool (fun (x : Tool) _ => x) (.nlist "externalReferences" "reference" true X.externalReference) (fun x => x.externalReferences)
      (fun (x : Tool) v => { x with externalReferences := v }) := by
  have hN : XFields.Named X.toolFields := by
    have : XNames X.toolFields := by unfold X.toolFields; infer_instance
    exact this.named
  have ha : XFields.attrNames X.toolFields |>.Nodup := show ([] : List String).Nodup by decide +kernel
  have he : XFields.elemNames X.toolFields |>.Nodup := show (["vendor", "name", "version", "hashes", "externalReferences"] : List String).Nodup by decide +kernel
  have ht : ∀ x s, (fun (x : Tool) _ => x) x s = Tool.ofP (XFields.setText X.toolFields s (Tool.toP x)) := (fun _ _ => rfl)
  exact ⟨struct_element (F := X.toolFields) (toP := Tool.toP) (ofP := Tool.ofP) (fun _ => rfl) hN ht _ _ rfl rfl,
    struct_elem (F := X.toolFields) (toP := Tool.toP) (ofP := Tool.ofP) .here (fun _ => rfl) hN he ht (fun _ => rfl) (fun _ _ => rfl),
    struct_elem (F := X.toolFields) (toP := Tool.toP) (ofP := Tool.ofP) (.elem .here) (fun _ => rfl) hN he ht (fun _ => rfl) (fun _ _ => rfl),
    struct_elem (F := X.toolFields) (toP := Tool.toP) (ofP := Tool.ofP) (.elem (.elem .here)) (fun _ => rfl) hN he ht (fun _ => rfl) (fun _ _ => rfl),
    struct_elem (F := X.toolFields) (toP := Tool.toP) (ofP := Tool.ofP) (.elem (.elem (.elem .here))) (fun _ => rfl) hN he ht (fun _ => rfl) (fun _ _ => rfl),
    struct_elem (F := X.toolFields) (toP := Tool.toP) (ofP := Tool.ofP) (.elem (.elem (.elem (.elem .here)))) (fun _ => rfl) hN he ht (fun _ => rfl) (fun _ _ => rfl)⟩

/-- cyclonedx.go:1809-1811 -/
theorem xml_elements_distributionConstraints :
    Element X.distributionConstraints [] ["tlp"] (fun (x : DistributionConstraints) _ => x) ∧
    ElemField X.distributionConstraints (fun (x : DistributionConstraints) _ => x) (.plain "tlp" true X.string) (fun x => x.tlp)
      (fun (x : DistributionConstraints) v => { x with tlp := v }) := by
  have hN : XFields.Named X.distributionConstraintsFields := by
    have : XNames X.distributionConstraintsFields := by unfold X.distributionConstraintsFields; infer_instance
    exact this.named
  have ha : XFields.attrNames X.distributionConstraintsFields |>.Nodup := show ([] : List String).Nodup by decide +kernel
  have he : XFields.elemNames X.distributionConstraintsFields |>.Nodup := show (["tlp"] : List String).Nodup by decide +kernel
  have ht : ∀ x s, (fun (x : DistributionConstraints) _ => x) x s = DistributionConstraints.ofP (XFields.setText X.distributionConstraintsFields s (DistributionConstraints.toP x)) := (fun _ _ => rfl)
  exact ⟨struct_element (F := X.distributionConstraintsFields) (toP := DistributionConstraints.toP) (ofP := DistributionConstraints.ofP) (fun _ => rfl) hN ht _ _ rfl rfl,
    struct_elem (F := X.distributionConstraintsFields) (toP := DistributionConstraints.toP) (ofP := DistributionConstraints.ofP) .here (fun _ => rfl) hN he ht (fun _ => rfl) (fun _ _ => rfl)⟩

/-- cyclonedx.go:1042-1054 -/
theorem xml_elements_metadata :
    Element X.metadata [] ["timestamp", "lifecycles", "tools", "authors", "component", "manufacture", "manufacturer", "supplier", "licenses", "properties", "distributionConstraints"] (fun (x : Metadata) _ => x) ∧
    ElemField X.metadata (fun (x : Metadata) _ => x) (.plain "timestamp" true X.string) (fun x => x.timestamp)
      (fun (x : Metadata) v => { x with timestamp := v }) ∧
    ElemField X.metadata (fun (x : Metadata) _ => x) (.nlist "lifecycles" "lifecycle" true X.lifecycle) (fun x => x.lifecycles)
      (fun (x : Metadata) v => { x with lifecycles := v }) ∧
    ElemField X.metadata (fun (x : Metadata) _ => x) (.ptr "tools" X.toolsChoice) (fun x => x.tools)
      (fun (x : Metadata) v => { x with tools := v }) ∧
    ElemField X.metadata (fun (x : Metadata) _ => x) (.nlist "authors" "author" true X.organizationalContact) (fun x => x.authors)
      (fun (x : Metadata) v => { x with authors := v }) ∧
    ElemField X.metadata (fun (x : Metadata) _ => x) (.ptr "component" X.component) (fun x => x.component)
      (fun (x : Metadata) v => { x with component := v }) ∧
    ElemField X.metadata (fun (x : Metadata) _ => x) (.ptr "manufacture" X.organizationalEntity) (fun x => x.manufacture)
      (fun (x : Metadata) v => { x with manufacture := v }) ∧
    ElemField X.metadata (fun (x : Metadata) _ => x) (.ptr "manufacturer" X.organizationalEntity) (fun x => x.manufacturer)
      (fun (x : Metadata) v => { x with manufacturer := v }) ∧
    ElemField X.metadata (fun (x : Metadata) _ => x) (.ptr "supplier" X.organizationalEntity) (fun x => x.supplier)
      (fun (x : Metadata) v => { x with supplier := v }) ∧
    ElemField X.metadata (fun (x : Metadata) _ => x) (.slice "licenses" X.licenses) (fun x => x.licenses)
      (fun (x : Metadata) v => { x with licenses := v }) ∧
    ElemField X.metadata (fun (x : Metadata) _ => x) (.nlist "properties" "property" true X.property) (fun x => x.properties)
      (fun (x : Metadata) v => { x with properties := v }) ∧
    ElemField X.metadata (fun (x : Metadata) _ => x) (.ptr "distributionConstraints" X.distributionConstraints) (fun x => x.distributionConstraints)
      (fun (x : Metadata) v => { x with distributionConstraints := v }) := by
  have hN : XFields.Named X.metadataFields := by
    have : XNames X.metadataFields := by unfold X.metadataFields; infer_instance
    exact this.named
  have ha : XFields.attrNames X.metadataFields |>.Nodup := show ([] : List String).Nodup by decide +kernel
  have he : XFields.elemNames X.metadataFields |>.Nodup := show (["timestamp", "lifecycles", "tools", "authors", "component", "manufacture", "manufacturer", "supplier", "licenses", "properties", "distributionConstraints"] : List String).Nodup by decide +kernel
  have ht : ∀ x s, (fun (x : Metadata) _ => x) x s = Metadata.ofP (XFields.setText X.metadataFields s (Metadata.toP x)) := (fun _ _ => rfl)
  exact ⟨struct_element (F := X.metadataFields) (toP := Metadata.toP) (ofP := Metadata.ofP) (fun _ => rfl) hN ht _ _ rfl rfl,
    struct_elem (F := X.metadataFields) (toP := Metadata.toP) (ofP := Metadata.ofP) .here (fun _ => rfl) hN he ht (fun _ => rfl) (fun _ _ => rfl),
    struct_elem (F := X.metadataFields) (toP := Metadata.toP) (ofP := Metadata.ofP) (.elem .here) (fun _ => rfl) hN he ht (fun _ => rfl) (fun _ _ => rfl),
    struct_elem (F := X.metadataFields) (toP := Metadata.toP) (ofP := Metadata.ofP) (.elem (.elem .here)) (fun _ => rfl) hN he ht (fun _ => rfl) (fun _ _ => rfl),
    struct_elem (F := X.metadataFields) (toP := Metadata.toP) (ofP := Metadata.ofP) (.elem (.elem (.elem .here))) (fun _ => rfl) hN he ht (fun _ => rfl) (fun _ _ => rfl),
    struct_elem (F := X.metadataFields) (toP := Metadata.toP) (ofP := Metadata.ofP) (.elem (.elem (.elem (.elem .here)))) (fun _ => rfl) hN he ht (fun _ => rfl) (fun _ _ => rfl),
    struct_elem (F := X.metadataFields) (toP := Metadata.toP) (ofP := Metadata.ofP) (.elem (.elem (.elem (.elem (.elem .here))))) (fun _ => rfl) hN he ht (fun _ => rfl) (fun _ _ => rfl),
    struct_elem (F := X.metadataFields) (toP := Metadata.toP) (ofP := Metadata.ofP) (.elem (.elem (.elem (.elem (.elem (.elem .here)))))) (fun _ => rfl) hN he ht (fun _ => rfl) (fun _ _ => rfl),
    struct_elem (F := X.metadataFields) (toP := Metadata.toP) (ofP := Metadata.ofP) (.elem (.elem (.elem (.elem (.elem (.elem (.elem .here))))))) (fun _ => rfl) hN he ht (fun _ => rfl) (fun _ _ => rfl),
    struct_elem (F := X.metadataFields) (toP := Metadata.toP) (ofP := Metadata.ofP) (.elem (.elem (.elem (.elem (.elem (.elem (.elem (.elem .here)))))))) (fun _ => rfl) hN he ht (fun _ => rfl) (fun _ _ => rfl),
    struct_elem (F := X.metadataFields) (toP := Metadata.toP) (ofP := Metadata.ofP) (.elem (.elem (.elem (.elem (.elem (.elem (.elem (.elem (.elem .here))))))))) (fun _ => rfl) hN he ht (fun _ => rfl) (fun _ _ => rfl),
    struct_elem (F := X.metadataFields) (toP := Metadata.toP) (ofP := Metadata.ofP) (.elem (.elem (.elem (.elem (.elem (.elem (.elem (.elem (.elem (.elem .here)))))))))) (fun _ => rfl) hN he ht (fun _ => rfl) (fun _ _ => rfl)⟩

/-- cyclonedx.go:349-352 -/
theorem xml_elements_credits :
    Element X.credits [] ["organizations", "individuals"] (fun (x : Credits) _ => x) ∧
    ElemField X.credits (fun (x : Credits) _ => x) (.nlist "organizations" "organization" true X.organizationalEntity) (fun x => x.organizations)
      (fun (x : Credits) v => { x with organizations := v }) ∧
    ElemField X.credits (fun (x : Credits) _ => x) (.nlist "individuals" "individual" true X.organizationalContact) (fun x => x.individuals)
      (fun (x : Credits) v => { x with individuals := v }) := by
  have hN : XFields.Named X.creditsFields := by
    have : XNames X.creditsFields := by unfold X.creditsFields; infer_instance
    exact this.named
  have ha : XFields.attrNames X.creditsFields |>.Nodup := show ([] : List String).Nodup by decide +kernel
  have he : XFields.elemNames X.creditsFields |>.Nodup := show (["organizations", "individuals"] : List String).Nodup by decide +kernel
  have ht : ∀ x s, (fun (x : Credits) _ => x) x s = Credits.ofP (XFields.setText X.creditsFields s (Credits.toP x)) := (fun _ _ => rfl)
  exact ⟨struct_element (F := X.creditsFields) (toP := Credits.toP) (ofP := Credits.ofP) (fun _ => rfl) hN ht _ _ rfl rfl,
    struct_elem (F := X.creditsFields) (toP := Credits.toP) (ofP := Credits.ofP) .here (fun _ => rfl) hN he ht (fun _ => rfl) (fun _ _ => rfl),
    struct_elem (F := X.creditsFields) (toP := Credits.toP) (ofP := Credits.ofP) (.elem .here) (fun _ => rfl) hN he ht (fun _ => rfl) (fun _ _ => rfl)⟩

/-- cyclonedx.go:1271-1275 -/
theorem xml_elements_proofOfConcept :
    Element X.proofOfConcept [] ["reproductionSteps", "environment", "supportingMaterial"] (fun (x : ProofOfConcept) _ => x) ∧
    ElemField X.proofOfConcept (fun (x : ProofOfConcept) _ => x) (.plain "reproductionSteps" true X.string) (fun x => x.reproductionSteps)
      (fun (x : ProofOfConcept) v => { x with reproductionSteps := v }) ∧
    ElemField X.proofOfConcept (fun (x : ProofOfConcept) _ => x) (.plain "environment" true X.string) (fun x => x.environment)
      (fun (x : ProofOfConcept) v => { x with environment := v }) ∧
    ElemField X.proofOfConcept (fun (x : ProofOfConcept) _ => x) (.nlist "supportingMaterial" "attachment" true X.attachedText) (fun x => x.supportingMaterial)
      (fun (x : ProofOfConcept) v => { x with supportingMaterial := v }) := by
  have hN : XFields.Named X.proofOfConceptFields := by
    have : XNames X.proofOfConceptFields := by unfold X.proofOfConceptFields; infer_instance
    exact this.named
  have ha : XFields.attrNames X.proofOfConceptFields |>.Nodup := show ([] : List String).Nodup by decide +kernel
  have he : XFields.elemNames X.proofOfConceptFields |>.Nodup := show (["reproductionSteps", "environment", "supportingMaterial"] : List String).Nodup by decide +kernel
  have ht : ∀ x s, (fun (x : ProofOfConcept) _ => x) x s = ProofOfConcept.ofP (XFields.setText X.proofOfConceptFields s (ProofOfConcept.toP x)) := (fun _ _ => rfl)
  exact ⟨struct_element (F := X.proofOfConceptFields) (toP := ProofOfConcept.toP) (ofP := ProofOfConcept.ofP) (fun _ => rfl) hN ht _ _ rfl rfl,
    struct_elem (F := X.proofOfConceptFields) (toP := ProofOfConcept.toP) (ofP := ProofOfConcept.ofP) .here (fun _ => rfl) hN he ht (fun _ => rfl) (fun _ _ => rfl),
    struct_elem (F := X.proofOfConceptFields) (toP := ProofOfConcept.toP) (ofP := ProofOfConcept.ofP) (.elem .here) (fun _ => rfl) hN he ht (fun _ => rfl) (fun _ _ => rfl),
    struct_elem (F := X.proofOfConceptFields) (toP := ProofOfConcept.toP) (ofP := ProofOfConcept.ofP) (.elem (.elem .here)) (fun _ => rfl) hN he ht (fun _ => rfl) (fun _ _ => rfl)⟩

/-- cyclonedx.go:1658-1665 -/
theorem xml_elements_vulnerabilityAnalysis :
    Element X.vulnerabilityAnalysis [] ["state", "justification", "responses", "detail", "firstIssued", "lastUpdated"] (fun (x : VulnerabilityAnalysis) _ => x) ∧
    ElemField X.vulnerabilityAnalysis (fun (x : VulnerabilityAnalysis) _ => x) (.plain "state" true X.string) (fun x => x.state)
      (fun (x : VulnerabilityAnalysis) v => { x with state := v }) ∧
    ElemField X.vulnerabilityAnalysis (fun (x : VulnerabilityAnalysis) _ => x) (.plain "justification" true X.string) (fun x => x.justification)
      (fun (x : VulnerabilityAnalysis) v => { x with justification := v }) ∧
    ElemField X.vulnerabilityAnalysis (fun (x : VulnerabilityAnalysis) _ => x) (.nlist "responses" "response" true X.string) (fun x => x.response)
      (fun (x : VulnerabilityAnalysis) v => { x with response := v }) ∧
    ElemField X.vulnerabilityAnalysis (fun (x : VulnerabilityAnalysis) _ => x) (.plain "detail" true X.string) (fun x => x.detail)
      (fun (x : VulnerabilityAnalysis) v => { x with detail := v }) ∧
    ElemField X.vulnerabilityAnalysis (fun (x : VulnerabilityAnalysis) _ => x) (.plain "firstIssued" true X.string) (fun x => x.firstIssued)
      (fun (x : VulnerabilityAnalysis) v => { x with firstIssued := v }) ∧
    ElemField X.vulnerabilityAnalysis (fun (x : VulnerabilityAnalysis) _ => x) (.plain "lastUpdated" true X.string) (fun x => x.lastUpdated)
      (fun (x : VulnerabilityAnalysis) v => { x with lastUpdated := v }) := by
  have hN : XFields.Named X.vulnerabilityAnalysisFields := by
    have : XNames X.vulnerabilityAnalysisFields := by unfold X.vulnerabilityAnalysisFields; infer_instance
    exact this.named
  have ha : XFields.attrNames X.vulnerabilityAnalysisFields |>.Nodup := show ([] : List String).Nodup by decide +kernel
  have he : XFields.elemNames X.vulnerabilityAnalysisFields |>.Nodup := show (["state", "justification", "responses", "detail", "firstIssued", "lastUpdated"] : List String).Nodup by decide +kernel
  have ht : ∀ x s, (fun (x : VulnerabilityAnalysis) _ => x) x s = VulnerabilityAnalysis.ofP (XFields.setText X.vulnerabilityAnalysisFields s (VulnerabilityAnalysis.toP x)) := (fun _ _ => rfl)
  exact ⟨struct_element (F := X.vulnerabilityAnalysisFields) (toP := VulnerabilityAnalysis.toP) (ofP := VulnerabilityAnalysis.ofP) (fun _ => rfl) hN ht _ _ rfl rfl,
    struct_elem (F := X.vulnerabilityAnalysisFields) (toP := VulnerabilityAnalysis.toP) (ofP := VulnerabilityAnalysis.ofP) .here (fun _ => rfl) hN he ht (fun _ => rfl) (fun _ _ => rfl),
    struct_elem (F := X.vulnerabilityAnalysisFields) (toP := VulnerabilityAnalysis.toP) (ofP := VulnerabilityAnalysis.ofP) (.elem .here) (fun _ => rfl) hN he ht (fun _ => rfl) (fun _ _ => rfl),
    struct_elem (F := X.vulnerabilityAnalysisFields) (toP := VulnerabilityAnalysis.toP) (ofP := VulnerabilityAnalysis.ofP) (.elem (.elem .here)) (fun _ => rfl) hN he ht (fun _ => rfl) (fun _ _ => rfl),
    struct_elem (F := X.vulnerabilityAnalysisFields) (toP := VulnerabilityAnalysis.toP) (ofP := VulnerabilityAnalysis.ofP) (.elem (.elem (.elem .here))) (fun _ => rfl) hN he ht (fun _ => rfl) (fun _ _ => rfl),
    struct_elem (F := X.vulnerabilityAnalysisFields) (toP := VulnerabilityAnalysis.toP) (ofP := VulnerabilityAnalysis.ofP) (.elem (.elem (.elem (.elem .here)))) (fun _ => rfl) hN he ht (fun _ => rfl) (fun _ _ => rfl),
    struct_elem (F := X.vulnerabilityAnalysisFields) (toP := VulnerabilityAnalysis.toP) (ofP := VulnerabilityAnalysis.ofP) (.elem (.elem (.elem (.elem (.elem .here))))) (fun _ => rfl) hN he ht (fun _ => rfl) (fun _ _ => rfl)⟩

/-- cyclonedx.go:1667-1674 -/
theorem xml_elements_vulnerabilityRating :
    Element X.vulnerabilityRating [] ["source", "score", "severity", "method", "vector", "justification"] (fun (x : VulnerabilityRating) _ => x) ∧
    ElemField X.vulnerabilityRating (fun (x : VulnerabilityRating) _ => x) (.ptr "source" X.source) (fun x => x.source)
      (fun (x : VulnerabilityRating) v => { x with source := v }) ∧
    ElemField X.vulnerabilityRating (fun (x : VulnerabilityRating) _ => x) (.ptr "score" X.f64) (fun x => x.score)
      (fun (x : VulnerabilityRating) v => { x with score := v }) ∧
    ElemField X.vulnerabilityRating (fun (x : VulnerabilityRating) _ => x) (.plain "severity" true X.string) (fun x => x.severity)
      (fun (x : VulnerabilityRating) v => { x with severity := v }) ∧
    ElemField X.vulnerabilityRating (fun (x : VulnerabilityRating) _ => x) (.plain "method" true X.string) (fun x => x.method)
      (fun (x : VulnerabilityRating) v => { x with method := v }) ∧
    ElemField X.vulnerabilityRating (fun (x : VulnerabilityRating) _ => x) (.plain "vector" true X.string) (fun x => x.vector)
      (fun (x : VulnerabilityRating) v => { x with vector := v }) ∧
    ElemField X.vulnerabilityRating (fun (x : VulnerabilityRating) _ => x) (.plain "justification" true X.string) (fun x => x.justification)
      (fun (x : VulnerabilityRating) v => { x with justification := v }) := by
  have hN : XFields.Named X.vulnerabilityRatingFields := by
    have : XNames X.vulnerabilityRatingFields := by unfold X.vulnerabilityRatingFields; infer_instance
    exact this.named
  have ha : XFields.attrNames X.vulnerabilityRatingFields |>.Nodup := show ([] : List String).Nodup by decide +kernel
  have he : XFields.elemNames X.vulnerabilityRatingFields |>.Nodup := show (["source", "score", "severity", "method", "vector", "justification"] : List String).Nodup by decide +kernel
  have ht : ∀ x s, (fun (x : VulnerabilityRating) _ => x) x s = VulnerabilityRating.ofP (XFields.setText X.vulnerabilityRatingFields s (VulnerabilityRating.toP x)) := (fun _ _ => rfl)
  exact ⟨struct_element (F := X.vulnerabilityRatingFields) (toP := VulnerabilityRating.toP) (ofP := VulnerabilityRating.ofP) (fun _ => rfl) hN ht _ _ rfl rfl,
    struct_elem (F := X.vulnerabilityRatingFields) (toP := VulnerabilityRating.toP) (ofP := VulnerabilityRating.ofP) .here (fun _ => rfl) hN he ht (fun _ => rfl) (fun _ _ => rfl),
    struct_elem (F := X.vulnerabilityRatingFields) (toP := VulnerabilityRating.toP) (ofP := VulnerabilityRating.ofP) (.elem .here) (fun _ => rfl) hN he ht (fun _ => rfl) (fun _ _ => rfl),
    struct_elem (F := X.vulnerabilityRatingFields) (toP := VulnerabilityRating.toP) (ofP := VulnerabilityRating.ofP) (.elem (.elem .here)) (fun _ => rfl) hN he ht (fun _ => rfl) (fun _ _ => rfl),
    struct_elem (F := X.vulnerabilityRatingFields) (toP := VulnerabilityRating.toP) (ofP := VulnerabilityRating.ofP) (.elem (.elem (.elem .here))) (fun _ => rfl) hN he ht (fun _ => rfl) (fun _ _ => rfl),
    struct_elem (F := X.vulnerabilityRatingFields) (toP := VulnerabilityRating.toP) (ofP := VulnerabilityRating.ofP) (.elem (.elem (.elem (.elem .here)))) (fun _ => rfl) hN he ht (fun _ => rfl) (fun _ _ => rfl),
    struct_elem (F := X.vulnerabilityRatingFields) (toP := VulnerabilityRating.toP) (ofP := VulnerabilityRating.ofP) (.elem (.elem (.elem (.elem (.elem .here))))) (fun _ => rfl) hN he ht (fun _ => rfl) (fun _ _ => rfl)⟩

/-- cyclonedx.go:1676-1679 -/
theorem xml_elements_vulnerabilityReference :
    Element X.vulnerabilityReference [] ["id", "source"] (fun (x : VulnerabilityReference) _ => x) ∧
    ElemField X.vulnerabilityReference (fun (x : VulnerabilityReference) _ => x) (.plain "id" true X.string) (fun x => x.id)
      (fun (x : VulnerabilityReference) v => { x with id := v }) ∧
    ElemField X.vulnerabilityReference (fun (x : VulnerabilityReference) _ => x) (.ptr "source" X.source) (fun x => x.source)
      (fun (x : VulnerabilityReference) v => { x with source := v }) := by
  have hN : XFields.Named X.vulnerabilityReferenceFields := by
    have : XNames X.vulnerabilityReferenceFields := by unfold X.vulnerabilityReferenceFields; infer_instance
    exact this.named
  have ha : XFields.attrNames X.vulnerabilityReferenceFields |>.Nodup := show ([] : List String).Nodup by decide +kernel
  have he : XFields.elemNames X.vulnerabilityReferenceFields |>.Nodup := show (["id", "source"] : List String).Nodup by decide +kernel
  have ht : ∀ x s, (fun (x : VulnerabilityReference) _ => x) x s = VulnerabilityReference.ofP (XFields.setText X.vulnerabilityReferenceFields s (VulnerabilityReference.toP x)) := (fun _ _ => rfl)
  exact ⟨struct_element (F := X.vulnerabilityReferenceFields) (toP := VulnerabilityReference.toP) (ofP := VulnerabilityReference.ofP) (fun _ => rfl) hN ht _ _ rfl rfl,
    struct_elem (F := X.vulnerabilityReferenceFields) (toP := VulnerabilityReference.toP) (ofP := VulnerabilityReference.ofP) .here (fun _ => rfl) hN he ht (fun _ => rfl) (fun _ _ => rfl),
    struct_elem (F := X.vulnerabilityReferenceFields) (toP := VulnerabilityReference.toP) (ofP := VulnerabilityReference.ofP) (.elem .here) (fun _ => rfl) hN he ht (fun _ => rfl) (fun _ _ => rfl)⟩

/-- cyclonedx.go:1634-1656 -/
theorem xml_elements_vulnerability :
    Element X.vulnerability ["bom-ref"] ["id", "source", "references", "ratings", "cwes", "description", "detail", "recommendation", "workaround", "proofOfConcept", "advisories", "created", "published", "updated", "rejected", "credits", "tools", "analysis", "affects", "properties"] (fun (x : Vulnerability) _ => x) ∧
    AttrField X.vulnerability (fun (x : Vulnerability) _ => x) "bom-ref" false XText.string (fun x => x.bomRef)
      (fun (x : Vulnerability) v => { x with bomRef := v }) ∧
    ElemField X.vulnerability (fun (x : Vulnerability) _ => x) (.plain "id" false X.string) (fun x => x.id)
      (fun (x : Vulnerability) v => { x with id := v }) ∧
    ElemField X.vulnerability (fun (x : Vulnerability) _ => x) (.ptr "source" X.source) (fun x => x.source)
      (fun (x : Vulnerability) v => { x with source := v }) ∧
    ElemField X.vulnerability (fun (x : Vulnerability) _ => x) (.nlist "references" "reference" true X.vulnerabilityReference) (fun x => x.references)
      (fun (x : Vulnerability) v => { x with references := v }) ∧
    ElemField X.vulnerability (fun (x : Vulnerability) _ => x) (.nlist "ratings" "rating" true X.vulnerabilityRating) (fun x => x.ratings)
      (fun (x : Vulnerability) v => { x with ratings := v }) ∧
    ElemField X.vulnerability (fun (x : Vulnerability) _ => x) (.nlist "cwes" "cwe" true X.int) (fun x => x.cwes)
      (fun (x : Vulnerability) v => { x with cwes := v }) ∧
    ElemField X.vulnerability (fun (x : Vulnerability) _ => x) (.plain "description" true X.string) (fun x => x.description)
      (fun (x : Vulnerability) v => { x with description := v }) ∧
    ElemField X.vulnerability (fun (x : Vulnerability) _ => x) (.plain "detail" true X.string) (fun x => x.detail)
      (fun (x : Vulnerability) v => { x with detail := v }) ∧
    ElemField X.vulnerability (fun (x : Vulnerability) _ => x) (.plain "recommendation" true X.string) (fun x => x.recommendation)
      (fun (x : Vulnerability) v => { x with recommendation := v }) ∧
    ElemField X.vulnerability (fun (x : Vulnerability) _ => x) (.plain "workaround" true X.string) (fun x => x.workaround)
      (fun (x : Vulnerability) v => { x with workaround := v }) ∧
    ElemField X.vulnerability (fun (x : Vulnerability) _ => x) (.ptr "proofOfConcept" X.proofOfConcept) (fun x => x.proofOfConcept)
      (fun (x : Vulnerability) v => { x with proofOfConcept := v }) ∧
    ElemField X.vulnerability (fun (x : Vulnerability) _ => x) (.nlist "advisories" "advisory" true X.advisory) (fun x => x.advisories)
      (fun (x : Vulnerability) v => { x with advisories := v }) ∧
    ElemField X.vulnerability (fun (x : Vulnerability) _ => x) (.plain "created" true X.string) (fun x => x.created)
      (fun (x : Vulnerability) v => { x with created := v }) ∧
    ElemField X.vulnerability (fun (x : Vulnerability) _ => x) (.plain "published" true X.string) (fun x => x.published)
      (fun (x : Vulnerability) v => { x with published := v }) ∧
    ElemField X.vulnerability (fun (x : Vulnerability) _ => x) (.plain "updated" true X.string) (fun x => x.updated)
      (fun (x : Vulnerability) v => { x with updated := v }) ∧
    ElemField X.vulnerability (fun (x : Vulnerability) _ => x) (.plain "rejected" true X.string) (fun x => x.rejected)
      (fun (x : Vulnerability) v => { x with rejected := v }) ∧
    ElemField X.vulnerability (fun (x : Vulnerability) _ => x) (.ptr "credits" X.credits) (fun x => x.credits)
      (fun (x : Vulnerability) v => { x with credits := v }) ∧
    ElemField X.vulnerability (fun (x : Vulnerability) _ => x) (.ptr "tools" X.toolsChoice) (fun x => x.tools)
      (fun (x : Vulnerability) v => { x with tools := v }) ∧
    ElemField X.vulnerability (fun (x : Vulnerability) _ => x) (.ptr "analysis" X.vulnerabilityAnalysis) (fun x => x.analysis)
      (fun (x : Vulnerability) v => { x with analysis := v }) ∧
    ElemField X.vulnerability (fun (x : Vulnerability) _ => x) (.nlist "affects" "target" true X.affects) (fun x => x.affects)
      (fun (x : Vulnerability) v => { x with affects := v }) ∧
    ElemField X.vulnerability (fun (x : Vulnerability) _ => x) (.nlist "properties" "property" true X.property) (fun x => x.properties)
      (fun (x : Vulnerability) v => { x with properties := v }) := by
  have hN : XFields.Named X.vulnerabilityFields := by
    have : XNames X.vulnerabilityFields := by unfold X.vulnerabilityFields; infer_instance
    exact this.named
  have ha : XFields.attrNames X.vulnerabilityFields |>.Nodup := show (["bom-ref"] : List String).Nodup by decide +kernel
  have he : XFields.elemNames X.vulnerabilityFields |>.Nodup := show (["id", "source", "references", "ratings", "cwes", "description", "detail", "recommendation", "workaround", "proofOfConcept", "advisories", "created", "published", "updated", "rejected", "credits", "tools", "analysis", "affects", "properties"] : List String).Nodup by decide +kernel
  have ht : ∀ x s, (fun (x : Vulnerability) _ => x) x s = Vulnerability.ofP (XFields.setText X.vulnerabilityFields s (Vulnerability.toP x)) := (fun _ _ => rfl)
  exact ⟨struct_element (F := X.vulnerabilityFields) (toP := Vulnerability.toP) (ofP := Vulnerability.ofP) (fun _ => rfl) hN ht _ _ rfl rfl,
    struct_attr (F := X.vulnerabilityFields) (toP := Vulnerability.toP) (ofP := Vulnerability.ofP) .here (fun _ => rfl) ha ht (fun _ => rfl) (fun _ _ => rfl),
    struct_elem (F := X.vulnerabilityFields) (toP := Vulnerability.toP) (ofP := Vulnerability.ofP) (.attr .here) (fun _ => rfl) hN he ht (fun _ => rfl) (fun _ _ => rfl),
    struct_elem (F := X.vulnerabilityFields) (toP := Vulnerability.toP) (ofP := Vulnerability.ofP) (.attr (.elem .here)) (fun _ => rfl) hN he ht (fun _ => rfl) (fun _ _ => rfl),
    struct_elem (F := X.vulnerabilityFields) (toP := Vulnerability.toP) (ofP := Vulnerability.ofP) (.attr (.elem (.elem .here))) (fun _ => rfl) hN he ht (fun _ => rfl) (fun _ _ => rfl),
    struct_elem (F := X.vulnerabilityFields) (toP := Vulnerability.toP) (ofP := Vulnerability.ofP) (.attr (.elem (.elem (.elem .here)))) (fun _ => rfl) hN he ht (fun _ => rfl) (fun _ _ => rfl),
    struct_elem (F := X.vulnerabilityFields) (toP := Vulnerability.toP) (ofP := Vulnerability.ofP) (.attr (.elem (.elem (.elem (.elem .here))))) (fun _ => rfl) hN he ht (fun _ => rfl) (fun _ _ => rfl),
    struct_elem (F := X.vulnerabilityFields) (toP := Vulnerability.toP) (ofP := Vulnerability.ofP) (.attr (.elem (.elem (.elem (.elem (.elem .here)))))) (fun _ => rfl) hN he ht (fun _ => rfl) (fun _ _ => rfl),
    struct_elem (F := X.vulnerabilityFields) (toP := Vulnerability.toP) (ofP := Vulnerability.ofP) (.attr (.elem (.elem (.elem (.elem (.elem (.elem .here))))))) (fun _ => rfl) hN he ht (fun _ => rfl) (fun _ _ => rfl),
    struct_elem (F := X.vulnerabilityFields) (toP := Vulnerability.toP) (ofP := Vulnerability.ofP) (.attr (.elem (.elem (.elem (.elem (.elem (.elem (.elem .here)))))))) (fun _ => rfl) hN he ht (fun _ => rfl) (fun _ _ => rfl),
    struct_elem (F := X.vulnerabilityFields) (toP := Vulnerability.toP) (ofP := Vulnerability.ofP) (.attr (.elem (.elem (.elem (.elem (.elem (.elem (.elem (.elem .here))))))))) (fun _ => rfl) hN he ht (fun _ => rfl) (fun _ _ => rfl),
    struct_elem (F := X.vulnerabilityFields) (toP := Vulnerability.toP) (ofP := Vulnerability.ofP) (.attr (.elem (.elem (.elem (.elem (.elem (.elem (.elem (.elem (.elem .here)))))))))) (fun _ => rfl) hN he ht (fun _ => rfl) (fun _ _ => rfl),
    struct_elem (F := X.vulnerabilityFields) (toP := Vulnerability.toP) (ofP := Vulnerability.ofP) (.attr (.elem (.elem (.elem (.elem (.elem (.elem (.elem (.elem (.elem (.elem .here))))))))))) (fun _ => rfl) hN he ht (fun _ => rfl) (fun _ _ => rfl),
    struct_elem (F := X.vulnerabilityFields) (toP := Vulnerability.toP) (ofP := Vulnerability.ofP) (.attr (.elem (.elem (.elem (.elem (.elem (.elem (.elem (.elem (.elem (.elem (.elem .here)))))))))))) (fun _ => rfl) hN he ht (fun _ => rfl) (fun _ _ => rfl),
    struct_elem (F := X.vulnerabilityFields) (toP := Vulnerability.toP) (ofP := Vulnerability.ofP) (.attr (.elem (.elem (.elem (.elem (.elem (.elem (.elem (.elem (.elem (.elem (.elem (.elem .here))))))))))))) (fun _ => rfl) hN he ht (fun _ => rfl) (fun _ _ => rfl),
    struct_elem (F := X.vulnerabilityFields) (toP := Vulnerability.toP) (ofP := Vulnerability.ofP) (.attr (.elem (.elem (.elem (.elem (.elem (.elem (.elem (.elem (.elem (.elem (.elem (.elem (.elem .here)))))))))))))) (fun _ => rfl) hN he ht (fun _ => rfl) (fun _ _ => rfl),
    struct_elem (F := X.vulnerabilityFields) (toP := Vulnerability.toP) (ofP := Vulnerability.ofP) (.attr (.elem (.elem (.elem (.elem (.elem (.elem (.elem (.elem (.elem (.elem (.elem (.elem (.elem (.elem .here))))))))))))))) (fun _ => rfl) hN he ht (fun _ => rfl) (fun _ _ => rfl),
    struct_elem (F := X.vulnerabilityFields) (toP := Vulnerability.toP) (ofP := Vulnerability.ofP) (.attr (.elem (.elem (.elem (.elem (.elem (.elem (.elem (.elem (.elem (.elem (.elem (.elem (.elem (.elem (.elem .here)))))))))))))))) (fun _ => rfl) hN he ht (fun _ => rfl) (fun _ _ => rfl),
    struct_elem (F := X.vulnerabilityFields) (toP := Vulnerability.toP) (ofP := Vulnerability.ofP) (.attr (.elem (.elem (.elem (.elem (.elem (.elem (.elem (.elem (.elem (.elem (.elem (.elem (.elem (.elem (.elem (.elem .here))))))))))))))))) (fun _ => rfl) hN he ht (fun _ => rfl) (fun _ _ => rfl),
    struct_elem (F := X.vulnerabilityFields) (toP := Vulnerability.toP) (ofP := Vulnerability.ofP) (.attr (.elem (.elem (.elem (.elem (.elem (.elem (.elem (.elem (.elem (.elem (.elem (.elem (.elem (.elem (.elem (.elem (.elem .here)))))))))))))))))) (fun _ => rfl) hN he ht (fun _ => rfl) (fun _ _ => rfl),
    struct_elem (F := X.vulnerabilityFields) (toP := Vulnerability.toP) (ofP := Vulnerability.ofP) (.attr (.elem (.elem (.elem (.elem (.elem (.elem (.elem (.elem (.elem (.elem (.elem (.elem (.elem (.elem (.elem (.elem (.elem (.elem .here))))))))))))))))))) (fun _ => rfl) hN he ht (fun _ => rfl) (fun _ _ => rfl),
    struct_elem (F := X.vulnerabilityFields) (toP := Vulnerability.toP) (ofP := Vulnerability.ofP) (.attr (.elem (.elem (.elem (.elem (.elem (.elem (.elem (.elem (.elem (.elem (.elem (.elem (.elem (.elem (.elem (.elem (.elem (.elem (.elem .here)))))))))))))))))))) (fun _ => rfl) hN he ht (fun _ => rfl) (fun _ _ => rfl)⟩

/-- cyclonedx.go:1712-1721 -/
theorem xml_elements_citation :
    Element X.citation ["bom-ref"] ["pointers", "expressions", "timestamp", "attributedTo", "process", "note"] (fun (x : Citation) _ => x) ∧
    AttrField X.citation (fun (x : Citation) _ => x) "bom-ref" false XText.string (fun x => x.bomRef)
      (fun (x : Citation) v => { x with bomRef := v }) ∧
    ElemField X.citation (fun (x : Citation) _ => x) (.nlist "pointers" "pointer" true X.string) (fun x => x.pointers)
      (fun (x : Citation) v => { x with pointers := v }) ∧
    ElemField X.citation (fun (x : Citation) _ => x) (.nlist "expressions" "expression" true X.string) (fun x => x.expressions)
      (fun (x : Citation) v => { x with expressions := v }) ∧
    ElemField X.citation (fun (x : Citation) _ => x) (.plain "timestamp" true X.string) (fun x => x.timestamp)
      (fun (x : Citation) v => { x with timestamp := v }) ∧
    ElemField X.citation (fun (x : Citation) _ => x) (.ptr "attributedTo" X.bomReference) (fun x => x.attributedTo)
      (fun (x : Citation) v => { x with attributedTo := v }) ∧
    ElemField X.citation (fun (x : Citation) _ => x) (.plain "process" true X.string) (fun x => x.process)
      (fun (x : Citation) v => { x with process := v }) ∧
    ElemField X.citation (fun (x : Citation) _ => x) (.plain "note" true X.string) (fun x => x.note)
      (fun (x : Citation) v => { x with note := v }) := by
  have hN : XFields.Named X.citationFields := by
    have : XNames X.citationFields := by unfold X.citationFields; infer_instance
    exact this.named
  have ha : XFields.attrNames X.citationFields |>.Nodup := show (["bom-ref"] : List String).Nodup by decide +kernel
  have he : XFields.elemNames X.citationFields |>.Nodup := show (["pointers", "expressions", "timestamp", "attributedTo", "process", "note"] : List String).Nodup by decide +kernel
  have ht : ∀ x s, (fun (x : Citation) _ => x) x s = Citation.ofP (XFields.setText X.citationFields s (Citation.toP x)) := (fun _ _ => rfl)
  exact ⟨struct_element (F := X.citationFields) (toP := Citation.toP) (ofP := Citation.ofP) (fun _ => rfl) hN ht _ _ rfl rfl,
    struct_attr (F := X.citationFields) (toP := Citation.toP) (ofP := Citation.ofP) .here (fun _ => rfl) ha ht (fun _ => rfl) (fun _ _ => rfl),
    struct_elem (F := X.citationFields) (toP := Citation.toP) (ofP := Citation.ofP) (.attr .here) (fun _ => rfl) hN he ht (fun _ => rfl) (fun _ _ => rfl),
    struct_elem (F := X.citationFields) (toP := Citation.toP) (ofP := Citation.ofP) (.attr (.elem .here)) (fun _ => rfl) hN he ht (fun _ => rfl) (fun _ _ => rfl),
    struct_elem (F := X.citationFields) (toP := Citation.toP) (ofP := Citation.ofP) (.attr (.elem (.elem .here))) (fun _ => rfl) hN he ht (fun _ => rfl) (fun _ _ => rfl),
    struct_elem (F := X.citationFields) (toP := Citation.toP) (ofP := Citation.ofP) (.attr (.elem (.elem (.elem .here)))) (fun _ => rfl) hN he ht (fun _ => rfl) (fun _ _ => rfl),
    struct_elem (F := X.citationFields) (toP := Citation.toP) (ofP := Citation.ofP) (.attr (.elem (.elem (.elem (.elem .here))))) (fun _ => rfl) hN he ht (fun _ => rfl) (fun _ _ => rfl),
    struct_elem (F := X.citationFields) (toP := Citation.toP) (ofP := Citation.ofP) (.attr (.elem (.elem (.elem (.elem (.elem .here)))))) (fun _ => rfl) hN he ht (fun _ => rfl) (fun _ _ => rfl)⟩

/-- cyclonedx.go:105-131 -/
theorem xml_elements_bom :
    Element X.bom ["xmlns", "serialNumber", "version"] ["metadata", "components", "services", "externalReferences", "dependencies", "compositions", "properties", "vulnerabilities", "annotations", "formulation", "declarations", "definitions", "citations"] (fun (x : BOM) _ => x) ∧
    AttrField X.bom (fun (x : BOM) _ => x) "xmlns" true XText.string (fun x => x.xmlns)
      (fun (x : BOM) v => { x with xmlns := v }) ∧
    AttrField X.bom (fun (x : BOM) _ => x) "serialNumber" false XText.string (fun x => x.serialNumber)
      (fun (x : BOM) v => { x with serialNumber := v }) ∧
    AttrField X.bom (fun (x : BOM) _ => x) "version" true XText.int (fun x => x.version)
      (fun (x : BOM) v => { x with version := v }) ∧
    ElemField X.bom (fun (x : BOM) _ => x) (.ptr "metadata" X.metadata) (fun x => x.metadata)
      (fun (x : BOM) v => { x with metadata := v }) ∧
    ElemField X.bom (fun (x : BOM) _ => x) (.nlist "components" "component" true X.component) (fun x => x.components)
      (fun (x : BOM) v => { x with components := v }) ∧
    ElemField X.bom (fun (x : BOM) _ => x) (.nlist "services" "service" true X.service) (fun x => x.services)
      (fun (x : BOM) v => { x with services := v }) ∧
    ElemField X.bom (fun (x : BOM) _ => x) (.nlist "externalReferences" "reference" true X.externalReference) (fun x => x.externalReferences)
      (fun (x : BOM) v => { x with externalReferences := v }) ∧
    ElemField X.bom (fun (x : BOM) _ => x) (.nlist "dependencies" "dependency" true X.dependency) (fun x => x.dependencies)
      (fun (x : BOM) v => { x with dependencies := v }) ∧
    ElemField X.bom (fun (x : BOM) _ => x) (.nlist "compositions" "composition" true X.composition) (fun x => x.compositions)
      (fun (x : BOM) v => { x with compositions := v }) ∧
    ElemField X.bom (fun (x : BOM) _ => x) (.nlist "properties" "property" true X.property) (fun x => x.properties)
      (fun (x : BOM) v => { x with properties := v }) ∧
    ElemField X.bom (fun (x : BOM) _ => x) (.nlist "vulnerabilities" "vulnerability" true X.vulnerability) (fun x => x.vulnerabilities)
      (fun (x : BOM) v => { x with vulnerabilities := v }) ∧
    ElemField X.bom (fun (x : BOM) _ => x) (.nlist "annotations" "annotation" true X.annotation) (fun x => x.annotations)
      (fun (x : BOM) v => { x with annotations := v }) ∧
    ElemField X.bom (fun (x : BOM) _ => x) (.nlist "formulation" "formula" true X.formula) (fun x => x.formulation)
      (fun (x : BOM) v => { x with formulation := v }) ∧
    ElemField X.bom (fun (x : BOM) _ => x) (.ptr "declarations" X.declarations) (fun x => x.declarations)
      (fun (x : BOM) v => { x with declarations := v }) ∧
    ElemField X.bom (fun (x : BOM) _ => x) (.ptr "definitions" X.definitions) (fun x => x.definitions)
      (fun (x : BOM) v => { x with definitions := v }) ∧
    ElemField X.bom (fun (x : BOM) _ => x) (.nlist "citations" "citation" true X.citation) (fun x => x.citations)
      (fun (x : BOM) v => { x with citations := v }) := by
  have hN : XFields.Named X.bomFields := by
    have : XNames X.bomFields := by unfold X.bomFields; infer_instance
    exact this.named
  have ha : XFields.attrNames X.bomFields |>.Nodup := show (["xmlns", "serialNumber", "version"] : List String).Nodup by decide +kernel
  have he : XFields.elemNames X.bomFields |>.Nodup := show (["metadata", "components", "services", "externalReferences", "dependencies", "compositions", "properties", "vulnerabilities", "annotations", "formulation", "declarations", "definitions", "citations"] : List String).Nodup by decide +kernel
  have ht : ∀ x s, (fun (x : BOM) _ => x) x s = BOM.ofP (XFields.setText X.bomFields s (BOM.toP x)) := (fun _ _ => rfl)
  exact ⟨struct_element (F := X.bomFields) (toP := BOM.toP) (ofP := BOM.ofP) (fun _ => rfl) hN ht _ _ rfl rfl,
    struct_attr (F := X.bomFields) (toP := BOM.toP) (ofP := BOM.ofP) (.skip .here) (fun _ => rfl) ha ht (fun _ => rfl) (fun _ _ => rfl),
    struct_attr (F := X.bomFields) (toP := BOM.toP) (ofP := BOM.ofP) (.skip (.attr (.skip (.skip (.skip .here))))) (fun _ => rfl) ha ht (fun _ => rfl) (fun _ _ => rfl),
    struct_attr (F := X.bomFields) (toP := BOM.toP) (ofP := BOM.ofP) (.skip (.attr (.skip (.skip (.skip (.attr .here)))))) (fun _ => rfl) ha ht (fun _ => rfl) (fun _ _ => rfl),
    struct_elem (F := X.bomFields) (toP := BOM.toP) (ofP := BOM.ofP) (.skip (.attr (.skip (.skip (.skip (.attr (.attr .here))))))) (fun _ => rfl) hN he ht (fun _ => rfl) (fun _ _ => rfl),
    struct_elem (F := X.bomFields) (toP := BOM.toP) (ofP := BOM.ofP) (.skip (.attr (.skip (.skip (.skip (.attr (.attr (.elem .here)))))))) (fun _ => rfl) hN he ht (fun _ => rfl) (fun _ _ => rfl),
    struct_elem (F := X.bomFields) (toP := BOM.toP) (ofP := BOM.ofP) (.skip (.attr (.skip (.skip (.skip (.attr (.attr (.elem (.elem .here))))))))) (fun _ => rfl) hN he ht (fun _ => rfl) (fun _ _ => rfl),
    struct_elem (F := X.bomFields) (toP := BOM.toP) (ofP := BOM.ofP) (.skip (.attr (.skip (.skip (.skip (.attr (.attr (.elem (.elem (.elem .here)))))))))) (fun _ => rfl) hN he ht (fun _ => rfl) (fun _ _ => rfl),
    struct_elem (F := X.bomFields) (toP := BOM.toP) (ofP := BOM.ofP) (.skip (.attr (.skip (.skip (.skip (.attr (.attr (.elem (.elem (.elem (.elem .here))))))))))) (fun _ => rfl) hN he ht (fun _ => rfl) (fun _ _ => rfl),
    struct_elem (F := X.bomFields) (toP := BOM.toP) (ofP := BOM.ofP) (.skip (.attr (.skip (.skip (.skip (.attr (.attr (.elem (.elem (.elem (.elem (.elem .here)))))))))))) (fun _ => rfl) hN he ht (fun _ => rfl) (fun _ _ => rfl),
    struct_elem (F := X.bomFields) (toP := BOM.toP) (ofP := BOM.ofP) (.skip (.attr (.skip (.skip (.skip (.attr (.attr (.elem (.elem (.elem (.elem (.elem (.elem .here))))))))))))) (fun _ => rfl) hN he ht (fun _ => rfl) (fun _ _ => rfl),
    struct_elem (F := X.bomFields) (toP := BOM.toP) (ofP := BOM.ofP) (.skip (.attr (.skip (.skip (.skip (.attr (.attr (.elem (.elem (.elem (.elem (.elem (.elem (.elem .here)))))))))))))) (fun _ => rfl) hN he ht (fun _ => rfl) (fun _ _ => rfl),
    struct_elem (F := X.bomFields) (toP := BOM.toP) (ofP := BOM.ofP) (.skip (.attr (.skip (.skip (.skip (.attr (.attr (.elem (.elem (.elem (.elem (.elem (.elem (.elem (.elem .here))))))))))))))) (fun _ => rfl) hN he ht (fun _ => rfl) (fun _ _ => rfl),
    struct_elem (F := X.bomFields) (toP := BOM.toP) (ofP := BOM.ofP) (.skip (.attr (.skip (.skip (.skip (.attr (.attr (.elem (.elem (.elem (.elem (.elem (.elem (.elem (.elem (.elem .here)))))))))))))))) (fun _ => rfl) hN he ht (fun _ => rfl) (fun _ _ => rfl),
    struct_elem (F := X.bomFields) (toP := BOM.toP) (ofP := BOM.ofP) (.skip (.attr (.skip (.skip (.skip (.attr (.attr (.elem (.elem (.elem (.elem (.elem (.elem (.elem (.elem (.elem (.elem .here))))))))))))))))) (fun _ => rfl) hN he ht (fun _ => rfl) (fun _ _ => rfl),
    struct_elem (F := X.bomFields) (toP := BOM.toP) (ofP := BOM.ofP) (.skip (.attr (.skip (.skip (.skip (.attr (.attr (.elem (.elem (.elem (.elem (.elem (.elem (.elem (.elem (.elem (.elem (.elem .here)))))))))))))))))) (fun _ => rfl) hN he ht (fun _ => rfl) (fun _ _ => rfl),
    struct_elem (F := X.bomFields) (toP := BOM.toP) (ofP := BOM.ofP) (.skip (.attr (.skip (.skip (.skip (.attr (.attr (.elem (.elem (.elem (.elem (.elem (.elem (.elem (.elem (.elem (.elem (.elem (.elem .here))))))))))))))))))) (fun _ => rfl) hN he ht (fun _ => rfl) (fun _ _ => rfl)⟩

/-- A component with a package URL and a MIME type: what it is written as. -/
example : ∃ as ks, X.component.enc "component" { type := "library", name := "a", mimeType := "m", packageURL := "pkg:a" } =
      some (some (.elem "component" as ks)) ∧
    attrsCalled "mime-type" as = [("mime-type", "m")] ∧ attrsCalled "bom-ref" as = [] ∧
    elemsCalled "purl" ks = [.elem "purl" [] [.text "pkg:a"]] ∧ elemsCalled "cpe" ks = [] := ⟨_, _, rfl, rfl, rfl, rfl, rfl⟩

/-- An element is read into its field, whatever the other fields are. -/
example (c : Component) : X.component.dec (.elem "component" [("mime-type", "m")] [.elem "purl" [] [.text "pkg:b"],
    .elem "other" [] []]) c = some { c with packageURL := "pkg:b", mimeType := "m" } := by cases c; rfl

end Verif.Props
