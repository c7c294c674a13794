-- @@ CertificateState
theorem comp_certificateState (v : Int) (x : CertificateState) :
    CompC v (.place .certificateState) J.certificateState x (x.Complete v) := by
  intro j hj
  obtain ⟨a, b⟩ := x
  cases a <;> cases b <;> simp only [J.certificateState] at hj
  · simp only [Option.some.injEq] at hj; subst hj
    simp [required_place, CertificateState.Complete, Place.Needs]
  · simp [CertificateState.Complete, comp_customCertificateState v _ j hj]
  · simp [CertificateState.Complete, comp_predefinedCertificateState v _ j hj]
  · cases hj

-- @@ CertificateExtension
theorem comp_certificateExtension (v : Int) (x : CertificateExtension) :
    CompC v (.place .certificateExtension) J.certificateExtension x (x.Complete v) := by
  intro j hj
  obtain ⟨a, b⟩ := x
  cases a <;> cases b <;> simp only [J.certificateExtension] at hj
  · simp only [Option.some.injEq] at hj; subst hj
    simp [required_place, CertificateExtension.Complete, Place.Needs]
  · simp [CertificateExtension.Complete, comp_customCertificateExtension v _ j hj]
  · simp [CertificateExtension.Complete, comp_commonCertificateExtension v _ j hj]
  · cases hj

-- @@ EvidenceIdentityChoice
theorem comp_evidenceIdentityChoice (v : Int) (x : EvidenceIdentityChoice) :
    CompC v (@SCH) J.evidenceIdentityChoice x (x.Complete v) := by
  intro j hj
  obtain ⟨a, p⟩ := x
  simp only [J.evidenceIdentityChoice] at hj
  rw [required_alt, required_since]
  cases a with
  | some i =>
    simp only at hj
    split at hj
    · cases hj
    · rename_i hp
      have hp : p = .nil := by cases p <;> simp_all [PSlice.isNil]
      subst hp
      obtain ⟨ms, rfl⟩ := struct_is_obj hj
      have := comp_evidenceIdentity v i _ hj
      simp [required_list_obj, this, EvidenceIdentityChoice.Complete, PSlice.elems]
  | none =>
    simp only at hj
    split at hj
    · have h := comp_list (fun a _ => comp_evidenceIdentity v a) j hj
      have hn : HasRequired v (.place .componentIdentityEvidence) j := by
        cases p with
        | list xs =>
          simp only [JCodec.pslice, Option.map_eq_some_iff] at hj
          obtain ⟨js, _, rfl⟩ := hj; exact required_place_arr
        | _ =>
          simp only [JCodec.pslice, Option.some.injEq] at hj
          subst hj; exact required_null _
      rw [h]
      simp [hn, EvidenceIdentityChoice.Complete]
    · rename_i hp
      have hp : p = .nil := by cases p <;> simp_all [PSlice.isNil]
      simp only [Option.some.injEq] at hj
      subst hj hp
      simp [required_null, EvidenceIdentityChoice.Complete, PSlice.elems]

-- @@ License
theorem comp_license (v : Int) (x : License) : CompC v (.place .license) J.license x (x.Complete v) := by
  suffices h : CompC v (.place .license) J.licenseAlias x (x.Complete v) by
    intro j hj
    simp only [J.license] at hj
    split at hj
    · cases hj
    · split at hj
      · cases hj
      · exact h j hj
  refine CompC.congr (comp_struct (
    @FIELDS)) ?_
  simp [Place.Needs, License.Complete, License.toP, J.licenseFields, JFields.Writes, nem_string, nem_bomReference, nem_option, nem_pslice]

-- @@ MLDatasetChoice
theorem comp_mlDatasetChoice (v : Int) (x : MLDatasetChoice) :
    CompC v (.place .modelDataset) J.mlDatasetChoice x (x.Complete v) := by
  intro j hj
  simp only [J.mlDatasetChoice] at hj
  split at hj
  · rename_i hr
    simp only [Option.some.injEq] at hj
    subst hj
    simp only [MLDatasetChoice.Complete, hr, false_implies, iff_true, required_place, List.mem_singleton, forall_eq]
    refine ⟨trivial, fun s hs => ?_⟩
    cases hs
    exact .str _
  · rename_i hr
    have hr : x.ref = "" := by simpa using hr
    simp only [MLDatasetChoice.Complete, hr, true_implies]
    cases hd : x.componentData with
    | none =>
      simp only [hd, Option.some.injEq] at hj; subst hj; simp [required_place, Place.Needs]
    | some d =>
      simp only [hd] at hj
      simpa using comp_componentData_modelDataset v d j hj

-- @@ AsserterChoice
theorem comp_asserterChoice (v : Int) (x : AsserterChoice) :
    CompC v (@SCH) J.asserterChoice x True := by
  intro j hj
  have no : ∀ (k : String) (j : Json), Place.asserter.members.lookup k = none →
      HasRequired v (.alt .str (.place .asserter)) (.obj [(k, j)]) := by
    intro k j hk
    rw [required_alt, required_place]
    refine ⟨.str _, trivial, fun m hm s hs => ?_⟩
    rw [List.mem_singleton] at hm
    subst hm
    rw [hk] at hs
    cases hs
  obtain ⟨a, b, c⟩ := x
  refine iff_true_intro ?_
  cases a with
  | some o =>
    simp only [J.asserterChoice, Option.map_eq_some_iff] at hj
    obtain ⟨j', _, rfl⟩ := hj
    exact no "organization" j' rfl
  | none =>
    cases b with
    | some o =>
      simp only [J.asserterChoice, Option.map_eq_some_iff] at hj
      obtain ⟨j', _, rfl⟩ := hj
      exact no "individual" j' rfl
    | none =>
      cases c with
      | some o =>
        simp only [J.asserterChoice, Option.map_eq_some_iff] at hj
        obtain ⟨j', _, rfl⟩ := hj
        exact no "ref" j' rfl
      | none =>
        simp only [J.asserterChoice, Option.some.injEq] at hj
        subst hj
        exact .alt (.str _) (.place trivial (by simp))

-- @@ PatentChoice
theorem comp_patentChoice (v : Int) (x : PatentChoice) :
    CompC v (.place .patentOrFamily) J.patentChoice x (x.Complete v) := by
  intro j hj
  obtain ⟨a, b⟩ := x
  cases a <;> cases b <;> simp only [J.patentChoice] at hj
  · simp only [Option.some.injEq] at hj; subst hj; simp [required_place, PatentChoice.Complete, Place.Needs]
  · simp [PatentChoice.Complete, comp_patentFamily v _ j hj]
  · simp [PatentChoice.Complete, comp_patent v _ j hj]
  · simp [PatentChoice.Complete, comp_patent v _ j hj]

-- @@ EnvironmentVariableChoice
theorem comp_environmentVariableChoice (v : Int) (x : EnvironmentVariableChoice) :
    CompC v (@SCH) J.environmentVariableChoice x (x.Complete v) := by
  intro j hj
  have hs : ∀ j, (if x.value ≠ "" then some (Json.str x.value) else some (.obj [])) = some j →
      (HasRequired v (@SCH) j ↔ (SpecVersion1_6 ≤ v → x.value ≠ "")) := by
    intro j hj
    split at hj <;> rename_i hv <;> simp only [Option.some.injEq] at hj <;> subst hj <;> rw [required_alt]
    · exact iff_of_true ⟨.str _, required_place_str⟩ fun _ => hv
    · simp [required_place, Place.Needs, hv, HasRequired.str]
  simp only [J.environmentVariableChoice] at hj
  simp only [EnvironmentVariableChoice.Complete]
  split at hj
  · rename_i p hp
    have e : (∃ p ∈ x.property, p.name ≠ "" ∨ p.value ≠ "") ↔ ¬ p.isZero := by
      simp [hp, Property.isZero, Classical.or_iff_not_imp_left]
    rw [e]
    split at hj
    · rename_i hz
      have h := (comp_property v _ j hj).2 trivial
      simp [required_alt, h, hz, HasRequired.str]
    · rename_i hz
      rw [hs j hj]
      simp [hz]
  · rename_i hp
    rw [hs j hj]
    simp [hp]

-- @@ Pedigree
theorem comp_pedigreeWith (C : JCodec Component) (v : Int) (x : Pedigree Component)
    (h_ancestors : ∀ c ∈ x.ancestors.elems, CompC v (.place .component) C c (c.Complete v))
    (h_descendants : ∀ c ∈ x.descendants.elems, CompC v (.place .component) C c (c.Complete v))
    (h_variants : ∀ c ∈ x.variants.elems, CompC v (.place .component) C c (c.Complete v)) :
    CompC v (.place .@PED) (J.pedigree C) x (CompletePedigree v x) := by
  refine CompC.congr (comp_struct (
    @FIELDS)) ?_
  cases x
  simp only [CompletePedigree, Pedigree.toP, completeComponents_iff, and_true, and_assoc, Place.Needs, true_and]

-- @@ Component
theorem comp_componentWith (C : JCodec Component) (v : Int) (x : Component)
    (h_components : ∀ c ∈ x.components.elems, CompC v (.place .component) C c (c.Complete v))
    (h_pedigree : ∀ p ∈ x.pedigree, CompC v (.place .@PED) (J.pedigree C) p (CompletePedigree v p)) :
    CompC v (.place .component) (J.componentWith C) x (x.Complete v) := by
  refine CompC.congr (comp_struct (
    @FIELDS)) ?_
  cases x
  simp [Place.Needs, J.componentFields, JFields.Writes, Component.Complete, Component.toP, completeComponents_iff,
    completePedigreeOpt_iff, nem_string]

theorem comp_component (v : Int) (x : Component) : CompC v (.place .component) J.component x (x.Complete v) := by
  suffices H : ∀ n (x : Component), x.height ≤ n → CompC v (.place .component) J.component x (x.Complete v) from
    H x.height x (Nat.le_refl _)
  intro n
  induction n with
  | zero => intro x h; rw [Component.height_eq] at h; omega
  | succ n ih =>
    intro x h
    refine (component_sameAt_self x).compC ?_
    rw [Component.height_eq] at h
    have hm : max (heightComponents x.components) (heightPedigreeOpt x.pedigree) ≤ n := by omega
    rw [Nat.max_le] at hm
    have hl : ∀ p : PSlice Component, heightComponents p ≤ n →
        ∀ c ∈ p.elems, CompC v (.place .component) J.component c (c.Complete v) := by
      intro p hp
      rw [heightComponents_le] at hp
      exact fun c hc => ih c (hp c hc)
    refine comp_componentWith _ v x (hl _ hm.1) ?_
    intro p hp
    have hp : x.pedigree = some p := hp
    have hm := hm.2
    simp only [hp, heightPedigreeOpt, heightPedigree_eq, Nat.max_le] at hm
    exact comp_pedigreeWith _ v p (hl _ hm.1) (hl _ hm.2.1) (hl _ hm.2.2)

-- @@ Service
theorem comp_serviceWith (C : JCodec Service) (v : Int) (x : Service)
    (h_services : ∀ c ∈ x.services.elems, CompC v (.place .service) C c (c.Complete v)) :
    CompC v (.place .service) (J.serviceWith C) x (x.Complete v) := by
  refine CompC.congr (comp_struct (
    @FIELDS)) ?_
  cases x
  simp [Place.Needs, J.serviceFields, JFields.Writes, Service.Complete, Service.toP, completeServices_iff]

theorem comp_service (v : Int) (x : Service) : CompC v (.place .service) J.service x (x.Complete v) := by
  suffices H : ∀ n (x : Service), x.height ≤ n → CompC v (.place .service) J.service x (x.Complete v) from
    H x.height x (Nat.le_refl _)
  intro n
  induction n with
  | zero => intro x h; rw [Service.height_eq] at h; omega
  | succ n ih =>
    intro x h
    refine (service_sameAt_self x).compC ?_
    rw [Service.height_eq] at h
    have hm : heightServices x.services ≤ n := by omega
    rw [heightServices_le] at hm
    exact comp_serviceWith _ v x fun c hc => ih c (hm c hc)

-- @@ ToolsChoice
theorem comp_toolsChoice (v : Int) (x : ToolsChoice) :
    CompC v (@SCH) J.toolsChoice x (x.Complete v) := by
  intro j hj
  obtain ⟨t, c, s⟩ := x
  simp only [J.toolsChoice] at hj
  simp only [ToolsChoice.Complete]
  rw [required_alt, required_since]
  split at hj
  · cases hj
  · rename_i h1
    split at hj
    · rename_i ht
      have hcs : c = .nil ∧ s = .nil := by
        cases t <;> cases c <;> cases s <;> simp_all [PSlice.isNil]
      have h := comp_list (fun a _ => comp_tool v a) j hj
      have hn : HasRequired v (.place .tools) j := by
        cases t with
        | list xs =>
          simp only [JCodec.pslice, Option.map_eq_some_iff] at hj
          obtain ⟨js, _, rfl⟩ := hj; exact required_place_arr
        | _ =>
          simp only [JCodec.pslice, Option.some.injEq] at hj
          subst hj; exact required_null _
      rw [h]
      simp [hn, hcs.1, hcs.2, PSlice.elems]
    · split at hj
      · obtain ⟨ms, rfl⟩ := struct_is_obj hj
        have h : CompC v (.place .tools) J.toolsChoiceJSON (c, s) (True ∧
            (∀ y ∈ c.elems, Component.Complete v y) ∧ (∀ y ∈ s.elems, Service.Complete v y) ∧ True) :=
          comp_struct (compF_field (some (.list (.place .component))) rfl (cf_list (fun a _ => comp_component v a)) <|
            compF_field (some (.list (.place .service))) rfl (cf_list (fun a _ => comp_service v a)) compF_nil)
        rw [h _ hj]
        simp [required_list_obj]
      · cases hj

