theorem annotator_fix (h2 : ¬ v < SpecVersion1_2) {x : Annotator} (h : convertAnnotator v x = x) :
    convertAnnotator v x.canonical = x.canonical := by
  have ha := congrArg Annotator.organization h
  have hb := congrArg Annotator.service h
  simp only [convertAnnotator, Annotator.canonical] at ha hb ⊢
  rw [Option.fix_map (fun _ _ => orgEntity_fix) ha, Option.fix_map (fun _ _ => service_fix h2) hb]

theorem annotations_fix (h2 : ¬ v < SpecVersion1_2) {x : PSlice Annotation} (h : convertAnnotations v x = x) :
    convertAnnotations v (x.compactWith Annotation.canonical) = x.compactWith Annotation.canonical := by
  unfold convertAnnotations at *
  split_ifs at h ⊢
  · refine PSlice.fix_compactWith (fun a _ h => ?_) h
    have h := congrArg Annotation.annotator h
    simp only [Annotation.canonical] at h ⊢
    rw [Option.fix_map (fun _ _ => annotator_fix h2) h]
  · rfl

theorem dependencies_fix {x : PSlice Dependency} (h : x.map (fun d => { d with provides := .nil }) = x) :
    (x.compactWith Dependency.canonical).map (fun d => { d with provides := .nil }) =
      x.compactWith Dependency.canonical := by
  refine PSlice.fix_compactWith (fun d _ h => ?_) h
  rw [← h]; rfl

theorem definitions_fix {x : Option Definitions} (h : x.map (fun d => { d with patents := .nil }) = x) :
    (x.map Definitions.canonical).map (fun d => { d with patents := .nil }) = x.map Definitions.canonical := by
  refine Option.fix_map (fun d _ h => ?_) h
  rw [← h]; rfl

/-- The canonical form of a converted document is a converted document, up to the XML namespace that it
does not have. -/
theorem bom_fix (h2 : ¬ v < SpecVersion1_2) {x : BOM} (h : convert v x = x) :
    convert v x.canonical = { x.canonical with xmlns := mapGet xmlNamespaces v } := by
  have h1 : ¬ v < SpecVersion1_1 := by simp only [SpecVersion1_1, SpecVersion1_2] at *; omega
  apply BOM.ext
  · simp only [convert_xmlName]
  · simp only [convert_xmlns]
  · have h := congrArg BOM.jsonSchema h
    simp only [convert_jsonSchema] at h ⊢
    exact h
  · simp only [convert_bomFormat]
  · have h := congrArg BOM.specVersion h
    simp only [convert_specVersion] at h ⊢
    exact h
  · simp only [convert_serialNumber, if_neg h1]
  · simp only [convert_version]
  · have h := congrArg BOM.metadata h
    simp only [convert_metadata, if_neg h2] at h ⊢
    exact Option.fix_map (fun _ _ => metadata_fix h2) h
  · have h := congrArg BOM.components h
    simp only [convert_components] at h ⊢
    exact PSlice.fix_compactWith (fun _ _ => component_fix h2) h
  · have h := congrArg BOM.services h
    simp only [convert_services, if_neg h2] at h ⊢
    exact PSlice.fix_compactWith (fun _ _ => service_fix h2) h
  · have h := congrArg BOM.externalReferences h
    simp only [convert_externalReferences, if_neg h1] at h ⊢
    exact extRefs_fix h
  · have h := congrArg BOM.dependencies h
    simp only [convert_dependencies, if_neg h2] at h ⊢
    exact fix_gate2 (g := PSlice.compactWith _) (f := fun y => y) (fun _ => rfl) dependencies_fix h
  · have h := congrArg BOM.compositions h
    simp only [convert_compositions] at h ⊢
    exact fix_gate' (g := PSlice.compactWith _) (f := fun y => convertCompositions v y)
      (PSlice.fix_compactWith (fun _ _ => composition_fix)) h (fun _ => rfl)
  · simp only [convert_properties]
  · have h := congrArg BOM.vulnerabilities h
    simp only [convert_vulnerabilities] at h ⊢
    exact fix_gate' (g := PSlice.compactWith _) (f := fun y => convertVulnerabilities v y)
      (PSlice.fix_compactWith (fun _ _ => vulnerability_fix h2)) h (fun _ => rfl)
  · have h := congrArg BOM.annotations h
    simp only [convert_annotations] at h ⊢
    exact fix_gate' (g := PSlice.compactWith _) (f := fun y => convertAnnotations v y)
      (annotations_fix h2) h (fun _ => rfl)
  · have h := congrArg BOM.formulation h
    simp only [convert_formulation] at h ⊢
    exact fix_gate (g := PSlice.compactWith _) rfl h
  · have h := congrArg BOM.declarations h
    simp only [convert_declarations] at h ⊢
    exact fix_gate (g := Option.map _) rfl h
  · have h := congrArg BOM.definitions h
    simp only [convert_definitions] at h ⊢
    exact fix_gate' (g := Option.map _)
      (f := fun y => if v < SpecVersion1_7 then y.map (fun d : Definitions => { d with patents := .nil }) else y)
      (fun h => fix_gate2 (g := Option.map _) (f := fun y => y)
        (e := Option.map (fun d : Definitions => { d with patents := .nil })) (fun _ => rfl) definitions_fix h) h (fun _ => rfl)
  · have h := congrArg BOM.citations h
    simp only [convert_citations] at h ⊢
    exact fix_gate (g := PSlice.compactWith _) rfl h
  · simp only [convert_signature]

end

end Verif
