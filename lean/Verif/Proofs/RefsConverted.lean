import Verif.Proofs.RefsCopied
import Verif.Proofs.Preserve

/-! Helper lemmas: the identifiers left by conversion are among those before it, in the same order and no more often
(`List.Sublist`, written `<+`); no property statements here. -/

namespace Verif

open List (Sublist)
open scoped List

set_option linter.unusedSimpArgs false
set_option linter.unusedSectionVars false

theorem sub_none {α : Type} (f : α → List String) {c : Prop} [Decidable c] {p q : PSlice α}
    (h : p.elems.flatMap f <+ q.elems.flatMap f) : (if c then .nil else p).elems.flatMap f <+ q.elems.flatMap f := by
  split
  · exact List.nil_sublist _
  · exact h

theorem sub_noneOpt {α : Type} (f : α → List String) {c : Prop} [Decidable c] {p q : Option α}
    (h : p.toList.flatMap f <+ q.toList.flatMap f) : (if c then none else p).toList.flatMap f <+ q.toList.flatMap f := by
  split
  · exact List.nil_sublist _
  · exact h

theorem sub_flatMap {α : Type} {f : α → List String} {g : α → α} : ∀ {xs : List α},
    (∀ a ∈ xs, f (g a) <+ f a) → (xs.map g).flatMap f <+ xs.flatMap f
  | [], _ => List.nil_sublist _
  | x :: xs, h => by
    simp only [List.map_cons, List.flatMap_cons]
    exact (h x (by simp)).append (sub_flatMap fun a ha => h a (List.mem_cons_of_mem _ ha))

theorem sub_map {α : Type} {f : α → List String} {g : α → α} {p : PSlice α} (h : ∀ a ∈ p.elems, f (g a) <+ f a) :
    (p.map g).elems.flatMap f <+ p.elems.flatMap f := by
  rw [show (p.map g).elems = p.elems.map g by cases p <;> simp [PSlice.map, PSlice.elems]]
  exact sub_flatMap h

theorem sub_mapOpt {α : Type} {f : α → List String} {g : α → α} {o : Option α} (h : ∀ a ∈ o, f (g a) <+ f a) :
    (o.map g).toList.flatMap f <+ o.toList.flatMap f := by
  cases o with
  | none => exact List.nil_sublist _
  | some a => simpa using h a rfl

theorem sub_ident (c : Prop) [Decidable c] (s : String) : ident (if c then "" else s) <+ ident s := by
  split
  · exact List.nil_sublist _
  · exact Sublist.refl _

theorem ite_sub {α : Type} {f : α → List String} {c : Prop} [Decidable c] {a b x : α} (h1 : c → f a <+ f x)
    (h2 : ¬ c → f b <+ f x) : f (if c then a else b) <+ f x := by
  split <;> simp_all

/-- Identifiers field by field. -/
macro "fields" : tactic => `(tactic| repeat' (first
  | exact Sublist.refl _ | exact List.nil_sublist _ | exact sub_ident _ _ | assumption
  | apply sub_none | apply sub_noneOpt
  | (apply sub_map; intro _ _) | (apply sub_mapOpt; intro _ _)))

variable [w : Wire] (v : Int)


theorem sub_onlyJSON {xs ys : List String} (h : xs <+ ys) : onlyJSON xs <+ onlyJSON ys := by
  cases w
  · exact h
  · exact Sublist.refl _

theorem sub_withText (s : String) (xs : List String) : withText "" xs <+ withText s xs := by
  cases w
  · exact Sublist.refl _
  · exact List.nil_sublist _

theorem contact_sub (x : OrganizationalContact) : (convertOrganizationalContact v x).bomRefs <+ x.bomRefs := by
  unfold convertOrganizationalContact
  split
  · exact List.nil_sublist _
  · exact Sublist.refl _

theorem entity_sub (x : OrganizationalEntity) : (convertOrganizationalEntity v x).bomRefs <+ x.bomRefs := by
  simp only [OrganizationalEntity.bomRefs, convertOrganizationalEntity_bomRef, convertOrganizationalEntity_address,
    convertOrganizationalEntity_contact]
  refine ((sub_ident _ _).append (by fields)).append ?_
  split
  · exact sub_map fun a _ => contact_sub v a
  · exact Sublist.refl _

theorem party_sub (x : OrganizationalEntityOrContact) : (convertParty v x).bomRefs <+ x.bomRefs :=
  (sub_mapOpt fun a _ => entity_sub v a).append (Sublist.refl _)

theorem licensing_sub (x : Licensing) : (convertLicensing v x).bomRefs <+ x.bomRefs :=
  ((sub_mapOpt fun a _ => party_sub v a).append (sub_mapOpt fun a _ => party_sub v a)).append
    (sub_mapOpt fun a _ => party_sub v a)

theorem licenseOf_sub (x : License) : (licenseOf v x).bomRefs <+ x.bomRefs := by
  simp only [License.bomRefs, licenseOf]
  refine (sub_ident _ _).append ?_
  apply sub_noneOpt
  split
  · exact sub_mapOpt fun a _ => licensing_sub v a
  · exact Sublist.refl _

theorem licenseChoice_sub (x : LicenseChoice) : (licenseChoice v x).bomRefs <+ x.bomRefs := by
  rw [licenseChoice_eq]
  simp only [LicenseChoice.bomRefs]
  exact (((sub_mapOpt fun a _ => licenseOf_sub v a).append (sub_onlyJSON (by fields))).append (Sublist.refl _)).append
    (sub_onlyJSON (by fields))

theorem license1_0_sub (x : LicenseChoice) : (convertLicense1_0 x).bomRefs <+ x.bomRefs := by
  rcases x with ⟨_ | l⟩
  · simp [convertLicense1_0, LicenseChoice.bomRefs, sub_withText]
  · simp only [convertLicense1_0]
    split
    · simp only [LicenseChoice.bomRefs]
      exact (((List.nil_sublist _).append (Sublist.refl _)).append (sub_withText _ _)).append (Sublist.refl _)
    · simp only [LicenseChoice.bomRefs]
      exact (((Sublist.refl _).append (Sublist.refl _)).append (sub_withText _ _)).append (Sublist.refl _)

theorem sub_filter {α : Type} (f : α → List String) (p : α → Bool) : ∀ xs : List α,
    (xs.filter p).flatMap f <+ xs.flatMap f
  | [] => Sublist.refl _
  | x :: xs => by
    rw [List.filter_cons]
    split
    · exact (Sublist.refl _).append (sub_filter f p xs)
    · exact (sub_filter f p xs).trans (List.sublist_append_right _ _)

theorem sub_store {α : Type} (f : α → List String) (xs : List α) : (storeOrNil xs).elems.flatMap f <+ xs.flatMap f := by
  unfold storeOrNil
  split
  · exact List.nil_sublist _
  · exact Sublist.refl _

theorem licenses_sub (p : PSlice LicenseChoice) :
    (convertLicenses v p).elems.flatMap LicenseChoice.bomRefs <+ p.elems.flatMap LicenseChoice.bomRefs := by
  rw [convertLicenses_eq]
  refine (sub_map fun a _ => licenseChoice_sub v a).trans ?_
  split
  · unfold convertLicenses1_0
    split
    · exact Sublist.refl _
    · exact (sub_store _ _).trans ((sub_filter _ _ _).trans (sub_flatMap fun a _ => license1_0_sub a))
  · exact Sublist.refl _

theorem evidence_sub (o : Option Evidence) :
    (convertEvidence v o).toList.flatMap Evidence.bomRefs <+ o.toList.flatMap Evidence.bomRefs := by
  cases o with
  | none => exact List.nil_sublist _
  | some e =>
    simp only [convertEvidence]
    split
    · exact List.nil_sublist _
    · split
      · simp only [Option.toList_some, List.flatMap_cons, List.flatMap_nil, List.append_nil, Evidence.bomRefs]
        exact (List.nil_sublist _).append (Sublist.refl _)
      · simp only [Option.toList_some, List.flatMap_cons, List.flatMap_nil, List.append_nil, Evidence.bomRefs]
        split
        · exact (sub_map (g := clearOccurrence) fun a _ => Sublist.refl _).append (licenses_sub v _)
        · exact (Sublist.refl _).append (licenses_sub v _)

theorem modelCardOf_sub (m : MLModelCard) : (if v < SpecVersion1_6 then
    { m with considerations := m.considerations.map fun c => { c with environmentalConsiderations := none } }
    else m).bomRefs <+ m.bomRefs := by
  split
  · simp only [MLModelCard.bomRefs]
    exact (Sublist.refl _).append (sub_mapOpt fun _ _ => List.nil_sublist _)
  · exact Sublist.refl _

theorem modelCard_sub (o : Option MLModelCard) :
    (convertModelCard v o).toList.flatMap MLModelCard.bomRefs <+ o.toList.flatMap MLModelCard.bomRefs := by
  refine sub_mapOpt fun m _ => ?_
  split
  · simp only [MLModelCard.bomRefs]
    exact (Sublist.refl _).append (sub_mapOpt fun _ _ => List.nil_sublist _)
  · exact Sublist.refl _

theorem Component.bomRefs_eq (c : Component) : c.bomRefs =
    ident c.bomRef ++
    c.supplier.toList.flatMap OrganizationalEntity.bomRefs ++
    c.manufacturer.toList.flatMap OrganizationalEntity.bomRefs ++
    c.authors.elems.flatMap OrganizationalContact.bomRefs ++
    c.licenses.elems.flatMap LicenseChoice.bomRefs ++
    c.pedigree.toList.flatMap refsPedigree ++
    c.components.elems.flatMap Component.bomRefs ++
    c.evidence.toList.flatMap Evidence.bomRefs ++
    c.modelCard.toList.flatMap MLModelCard.bomRefs ++
    c.data.elems.flatMap ComponentData.bomRefs ++
    c.patentAssertions.elems.flatMap PatentAssertion.bomRefs := by
  cases c
  simp only [Component.bomRefs, refsPedigreeOpt_eq, refsComponents_eq]

theorem refsPedigree_eq (p : Pedigree Component) : refsPedigree p =
    p.ancestors.elems.flatMap Component.bomRefs ++ p.descendants.elems.flatMap Component.bomRefs ++
      p.variants.elems.flatMap Component.bomRefs := by
  cases p
  simp only [refsPedigree, refsComponents_eq]

theorem Service.bomRefs_eq (s : Service) : s.bomRefs =
    ident s.bomRef ++
    s.provider.toList.flatMap OrganizationalEntity.bomRefs ++
    s.data.elems.flatMap DataClassification.bomRefs ++
    s.licenses.elems.flatMap LicenseChoice.bomRefs ++
    s.services.elems.flatMap Service.bomRefs ++
    s.patentAssertions.elems.flatMap PatentAssertion.bomRefs := by
  cases s
  simp only [Service.bomRefs, refsServices_eq]

theorem componentConverter_sub (c : Component) : (componentConverter v c).bomRefs <+ c.bomRefs := by
  rw [Component.bomRefs_eq, Component.bomRefs_eq c]
  simp only [componentConverter_bomRef, componentConverter_supplier, componentConverter_manufacturer,
    componentConverter_authors, componentConverter_licenses, componentConverter_pedigree, componentConverter_components,
    componentConverter_evidence, componentConverter_modelCard, componentConverter_data,
    componentConverter_patentAssertions]
  refine (((((((((?_ : Sublist _ _).append ?_).append ?_).append ?_).append ?_).append ?_).append ?_).append ?_).append
    ?_).append ?_ |>.append ?_
  any_goals fields
  · exact licenses_sub v _
  · split
    · exact sub_mapOpt fun p _ => by simp only [refsPedigree_eq]; exact Sublist.refl _
    · exact Sublist.refl _
  · exact evidence_sub v _
  · exact modelCardOf_sub v _

theorem recurseComponent_sub (c : Component) : (recurseComponent (componentConverter v) c).bomRefs <+ c.bomRefs := by
  induction c using Component.induct with
  | h c ih =>
    rw [recurseComponent_eq]
    refine (componentConverter_sub v _).trans ?_
    rw [Component.bomRefs_eq, Component.bomRefs_eq c]
    simp only [Component.mapChildren]
    have hc : ∀ d ∈ c.components.elems, (recurseComponent (componentConverter v) d).bomRefs <+ d.bomRefs :=
      ((component_children_iff (P := fun d => (recurseComponent (componentConverter v) d).bomRefs <+ d.bomRefs)).mp ih).1
    have hp := ((component_children_iff
      (P := fun d => (recurseComponent (componentConverter v) d).bomRefs <+ d.bomRefs)).mp ih).2
    refine (((((((((Sublist.refl _).append (Sublist.refl _)).append (Sublist.refl _)).append (Sublist.refl _)).append
      (Sublist.refl _)).append ?_).append (sub_map hc)).append (Sublist.refl _)).append (Sublist.refl _)).append
      (Sublist.refl _) |>.append (Sublist.refl _)
    refine sub_mapOpt fun p hm => ?_
    have hq := pedigree_relatives_iff.mp (hp p hm)
    simp only [refsPedigree_eq, Pedigree.mapComponents]
    exact ((sub_map hq.1).append (sub_map hq.2.1)).append (sub_map hq.2.2)

theorem serviceConverter_sub (s : Service) : (serviceConverter v s).bomRefs <+ s.bomRefs := by
  rw [Service.bomRefs_eq, Service.bomRefs_eq s]
  simp only [serviceConverter_bomRef, serviceConverter_provider, serviceConverter_data, serviceConverter_licenses,
    serviceConverter_services, serviceConverter_patentAssertions]
  refine ((((?_ : Sublist _ _).append ?_).append ?_).append ?_).append ?_ |>.append ?_
  any_goals fields
  · exact entity_sub v _
  · unfold convertDataClassifications
    split
    · exact sub_map fun _ _ => List.nil_sublist _
    · exact Sublist.refl _

theorem recurseService_sub (s : Service) : (recurseService (serviceConverter v) s).bomRefs <+ s.bomRefs := by
  induction s using Service.induct with
  | h s ih =>
    rw [recurseService_eq]
    refine (serviceConverter_sub v _).trans ?_
    rw [Service.bomRefs_eq, Service.bomRefs_eq s]
    simp only [Service.mapChildren]
    exact ((((Sublist.refl _).append (Sublist.refl _)).append (Sublist.refl _)).append (Sublist.refl _)).append
      (sub_map ih) |>.append (Sublist.refl _)

theorem tools_sub (t : ToolsChoice) : (convertTools v t).bomRefs <+ t.bomRefs := by
  simp only [convertTools, ToolsChoice.bomRefs]
  have hs : ∀ s : Service,
      Service.bomRefs { s with provider := s.provider.map (convertOrganizationalEntity v) } <+ s.bomRefs := by
    intro s
    rw [Service.bomRefs_eq, Service.bomRefs_eq s]
    simp only
    exact ((((Sublist.refl _).append (sub_mapOpt fun a _ => entity_sub v a)).append (Sublist.refl _)).append
      (Sublist.refl _)).append (Sublist.refl _) |>.append (Sublist.refl _)
  split
  · exact (List.nil_sublist _).append (List.nil_sublist _)
  · exact (Sublist.refl _).append (sub_map fun s _ => hs s)

theorem vulnerability_sub (x : Vulnerability) : (convertVulnerability v x).bomRefs <+ x.bomRefs := by
  simp only [Vulnerability.bomRefs, convertVulnerability_bomRef, convertVulnerability_credits,
    convertVulnerability_tools]
  refine ((Sublist.refl _).append ?_).append (sub_mapOpt fun a _ => tools_sub v a)
  split
  · refine sub_mapOpt fun c _ => ?_
    exact (sub_map fun a _ => entity_sub v a).append (sub_map fun a _ => contact_sub v a)
  · exact Sublist.refl _

theorem annotator_sub (x : Annotator) : (convertAnnotator v x).bomRefs <+ x.bomRefs :=
  (((sub_mapOpt fun a _ => entity_sub v a).append (Sublist.refl _)).append (Sublist.refl _)).append
    (sub_mapOpt fun a _ => recurseService_sub v a)

theorem annotations_sub (p : PSlice Annotation) :
    (convertAnnotations v p).elems.flatMap Annotation.bomRefs <+ p.elems.flatMap Annotation.bomRefs := by
  unfold convertAnnotations
  split
  · refine sub_map fun a _ => ?_
    exact (Sublist.refl _).append (sub_mapOpt fun b _ => annotator_sub v b)
  · exact Sublist.refl _

theorem composition_sub (x : Composition) : (convertComposition v x).bomRefs <+ x.bomRefs := by
  simp only [Composition.bomRefs, convertComposition_bomRef]
  exact sub_ident _ _

theorem metadata_sub (x : Metadata) : (convertMetadata v x).bomRefs <+ x.bomRefs := by
  simp only [Metadata.bomRefs, convertMetadata_tools, convertMetadata_authors, convertMetadata_component,
    convertMetadata_manufacture, convertMetadata_manufacturer, convertMetadata_supplier, convertMetadata_licenses]
  refine (((((?_ : Sublist _ _).append ?_).append ?_).append ?_).append ?_).append ?_ |>.append ?_
  any_goals fields
  · exact tools_sub v _
  · exact contact_sub v _
  · exact recurseComponent_sub v _
  · exact entity_sub v _
  · exact entity_sub v _
  · exact licenses_sub v _

/-- Conversion keeps some of the identifiers, in their order, and adds none. -/
theorem convert_sub (b : BOM) : (convert v b).bomRefs <+ b.bomRefs := by
  simp only [BOM.bomRefs, convert_metadata, convert_components, convert_services, convert_compositions,
    convert_vulnerabilities, convert_annotations, convert_formulation, convert_declarations, convert_definitions,
    convert_citations]
  refine ((((((((?_ : Sublist _ _).append ?_).append ?_).append ?_).append ?_).append ?_).append ?_).append ?_).append ?_
    |>.append ?_
  any_goals fields
  · exact metadata_sub v _
  · exact recurseComponent_sub v _
  · exact recurseService_sub v _
  · exact composition_sub v _
  · exact vulnerability_sub v _
  · exact annotations_sub v _
  · split
    · exact sub_mapOpt fun _ _ => (Sublist.refl _).append (List.nil_sublist _)
    · exact Sublist.refl _

end Verif
