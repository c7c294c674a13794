-- @@ CertificateState
theorem enum_certificateState (v : Int) (x : CertificateState) :
    EnumC v (.place .certificateState) J.certificateState x (x.Listed v) := by
  intro j hj
  obtain ⟨a, b⟩ := x
  cases a <;> cases b <;> simp only [J.certificateState] at hj
  · simp only [Option.some.injEq] at hj; subst hj
    simp [listed_place, CertificateState.Listed]
  · simp [CertificateState.Listed, enum_customCertificateState v _ j hj]
  · simp [CertificateState.Listed, enum_predefinedCertificateState v _ j hj]
  · cases hj

-- @@ CertificateExtension
theorem enum_certificateExtension (v : Int) (x : CertificateExtension) :
    EnumC v (.place .certificateExtension) J.certificateExtension x (x.Listed v) := by
  intro j hj
  obtain ⟨a, b⟩ := x
  cases a <;> cases b <;> simp only [J.certificateExtension] at hj
  · simp only [Option.some.injEq] at hj; subst hj
    simp [listed_place, CertificateExtension.Listed]
  · simp [CertificateExtension.Listed, enum_customCertificateExtension v _ j hj]
  · simp [CertificateExtension.Listed, enum_commonCertificateExtension v _ j hj]
  · cases hj

-- @@ EvidenceIdentityChoice
theorem enum_evidenceIdentityChoice (v : Int) (x : EvidenceIdentityChoice) :
    EnumC v (@SCH) J.evidenceIdentityChoice x (x.Listed v) := by
  intro j hj
  obtain ⟨a, p⟩ := x
  simp only [J.evidenceIdentityChoice] at hj
  rw [listed_alt, listed_since]
  cases a with
  | some i =>
    simp only at hj
    split at hj
    · cases hj
    · rename_i hp
      have hp : p = .nil := by cases p <;> simp_all [PSlice.isNil]
      subst hp
      obtain ⟨ms, rfl⟩ := struct_is_obj hj
      have := enum_evidenceIdentity v i _ hj
      simp [listed_list_obj, this, EvidenceIdentityChoice.Listed, PSlice.elems]
  | none =>
    simp only at hj
    split at hj
    · have h := enum_list (fun a _ => enum_evidenceIdentity v a) j hj
      have hn : HasListed v (.place .componentIdentityEvidence) j := by
        cases p with
        | list xs =>
          simp only [JCodec.pslice, Option.map_eq_some_iff] at hj
          obtain ⟨js, _, rfl⟩ := hj; exact listed_place_arr
        | _ =>
          simp only [JCodec.pslice, Option.some.injEq] at hj
          subst hj; exact listed_null _
      rw [h]
      simp [hn, EvidenceIdentityChoice.Listed]
    · rename_i hp
      have hp : p = .nil := by cases p <;> simp_all [PSlice.isNil]
      simp only [Option.some.injEq] at hj
      subst hj hp
      simp [listed_null, EvidenceIdentityChoice.Listed, PSlice.elems]

-- @@ License
theorem enum_license (v : Int) (x : License) : EnumC v (.place .license) J.license x (x.Listed v) := by
  suffices h : EnumC v (.place .license) J.licenseAlias x (x.Listed v) by
    intro j hj
    simp only [J.license] at hj
    split at hj
    · cases hj
    · split at hj
      · cases hj
      · exact h j hj
  refine EnumC.congr (enum_struct (
    @FIELDS)) ?_
  simp [License.Listed, License.toP]

-- @@ MLDatasetChoice
theorem enum_mlDatasetChoice (v : Int) (x : MLDatasetChoice) :
    EnumC v (.place .modelDataset) J.mlDatasetChoice x (x.Listed v) := by
  intro j hj
  simp only [J.mlDatasetChoice] at hj
  split at hj
  · rename_i hr
    simp only [Option.some.injEq] at hj
    subst hj
    simp only [MLDatasetChoice.Listed, hr, false_implies, iff_true, listed_place, List.mem_singleton, forall_eq]
    refine ⟨lists_none rfl _, fun s hs => ?_⟩
    cases hs
    exact .str _
  · rename_i hr
    have hr : x.ref = "" := by simpa using hr
    simp only [MLDatasetChoice.Listed, hr, true_implies]
    cases hd : x.componentData with
    | none =>
      simp only [hd, Option.some.injEq] at hj; subst hj; simp [listed_place]
    | some d =>
      simp only [hd] at hj
      simpa using enum_componentData_modelDataset v d j hj

-- @@ AsserterChoice
theorem enum_asserterChoice (v : Int) (x : AsserterChoice) :
    EnumC v (@SCH) J.asserterChoice x True := by
  intro j hj
  have no : ∀ (k : String) (j : Json), Place.asserter.members.lookup k = none →
      HasListed v (.alt .str (.place .asserter)) (.obj [(k, j)]) := by
    intro k j hk
    rw [listed_alt, listed_place]
    refine ⟨.str _, fun m hm => ?_⟩
    rw [List.mem_singleton] at hm
    subst hm
    refine ⟨lists_none rfl _, fun s hs => ?_⟩
    rw [hk] at hs
    cases hs
  obtain ⟨a, b, c⟩ := x
  refine iff_true_intro ?_
  cases a with
  | some o =>
    simp only [J.asserterChoice, Option.map_eq_some_iff] at hj
    obtain ⟨j', _, rfl⟩ := hj
    exact no "organization" j' rfl
  | none =>
    cases b with
    | some o =>
      simp only [J.asserterChoice, Option.map_eq_some_iff] at hj
      obtain ⟨j', _, rfl⟩ := hj
      exact no "individual" j' rfl
    | none =>
      cases c with
      | some o =>
        simp only [J.asserterChoice, Option.map_eq_some_iff] at hj
        obtain ⟨j', _, rfl⟩ := hj
        exact no "ref" j' rfl
      | none =>
        simp only [J.asserterChoice, Option.some.injEq] at hj
        subst hj
        exact .alt (.str _) (.place (by simp) (by simp))

-- @@ PatentChoice
theorem enum_patentChoice (v : Int) (x : PatentChoice) :
    EnumC v (.place .patentOrFamily) J.patentChoice x (x.Listed v) := by
  intro j hj
  obtain ⟨a, b⟩ := x
  cases a <;> cases b <;> simp only [J.patentChoice] at hj
  · simp only [Option.some.injEq] at hj; subst hj; simp [listed_place, PatentChoice.Listed]
  · simp [PatentChoice.Listed, enum_patentFamily v _ j hj]
  · simp [PatentChoice.Listed, enum_patent v _ j hj]
  · simp [PatentChoice.Listed, enum_patent v _ j hj]

-- @@ EnvironmentVariableChoice
theorem enum_environmentVariableChoice (v : Int) (x : EnvironmentVariableChoice) :
    EnumC v (@SCH) J.environmentVariableChoice x True := by
  intro j hj
  have hs : ∀ j, (if x.value ≠ "" then some (Json.str x.value) else some (.obj [])) = some j →
      (HasListed v (@SCH) j ↔ True) := by
    intro j hj
    split at hj <;> simp only [Option.some.injEq] at hj <;> subst hj <;> rw [listed_alt]
    · exact iff_true_intro ⟨.str _, listed_place_str⟩
    · simp [listed_place, HasListed.str]
  simp only [J.environmentVariableChoice] at hj
  split at hj
  · split at hj
    · have h := (enum_property v _ j hj).2 trivial
      simp [listed_alt, h, HasListed.str]
    · exact hs j hj
  · exact hs j hj

-- @@ Pedigree
theorem enum_pedigreeWith (C : JCodec Component) (v : Int) (x : Pedigree Component)
    (h_ancestors : ∀ c ∈ x.ancestors.elems, EnumC v (.place .component) C c (c.Listed v))
    (h_descendants : ∀ c ∈ x.descendants.elems, EnumC v (.place .component) C c (c.Listed v))
    (h_variants : ∀ c ∈ x.variants.elems, EnumC v (.place .component) C c (c.Listed v)) :
    EnumC v (.place .@PED) (J.pedigree C) x (ListedPedigree v x) := by
  refine EnumC.congr (enum_struct (
    @FIELDS)) ?_
  cases x
  simp only [ListedPedigree, Pedigree.toP, listedComponents_iff, and_true, and_assoc]

-- @@ Component
theorem enum_componentWith (C : JCodec Component) (v : Int) (x : Component)
    (h_components : ∀ c ∈ x.components.elems, EnumC v (.place .component) C c (c.Listed v))
    (h_pedigree : ∀ p ∈ x.pedigree, EnumC v (.place .@PED) (J.pedigree C) p (ListedPedigree v p)) :
    EnumC v (.place .component) (J.componentWith C) x (x.Listed v) := by
  refine EnumC.congr (enum_struct (
    @FIELDS)) ?_
  cases x
  simp [Component.Listed, Component.toP, listedComponents_iff,
    listedPedigreeOpt_iff]

theorem enum_component (v : Int) (x : Component) : EnumC v (.place .component) J.component x (x.Listed v) := by
  suffices H : ∀ n (x : Component), x.height ≤ n → EnumC v (.place .component) J.component x (x.Listed v) from
    H x.height x (Nat.le_refl _)
  intro n
  induction n with
  | zero => intro x h; rw [Component.height_eq] at h; omega
  | succ n ih =>
    intro x h
    refine (component_sameAt_self x).enumC ?_
    rw [Component.height_eq] at h
    have hm : max (heightComponents x.components) (heightPedigreeOpt x.pedigree) ≤ n := by omega
    rw [Nat.max_le] at hm
    have hl : ∀ p : PSlice Component, heightComponents p ≤ n →
        ∀ c ∈ p.elems, EnumC v (.place .component) J.component c (c.Listed v) := by
      intro p hp
      rw [heightComponents_le] at hp
      exact fun c hc => ih c (hp c hc)
    refine enum_componentWith _ v x (hl _ hm.1) ?_
    intro p hp
    have hp : x.pedigree = some p := hp
    have hm := hm.2
    simp only [hp, heightPedigreeOpt, heightPedigree_eq, Nat.max_le] at hm
    exact enum_pedigreeWith _ v p (hl _ hm.1) (hl _ hm.2.1) (hl _ hm.2.2)

-- @@ Service
theorem enum_serviceWith (C : JCodec Service) (v : Int) (x : Service)
    (h_services : ∀ c ∈ x.services.elems, EnumC v (.place .service) C c (c.Listed v)) :
    EnumC v (.place .service) (J.serviceWith C) x (x.Listed v) := by
  refine EnumC.congr (enum_struct (
    @FIELDS)) ?_
  cases x
  simp [Service.Listed, Service.toP, listedServices_iff]

theorem enum_service (v : Int) (x : Service) : EnumC v (.place .service) J.service x (x.Listed v) := by
  suffices H : ∀ n (x : Service), x.height ≤ n → EnumC v (.place .service) J.service x (x.Listed v) from
    H x.height x (Nat.le_refl _)
  intro n
  induction n with
  | zero => intro x h; rw [Service.height_eq] at h; omega
  | succ n ih =>
    intro x h
    refine (service_sameAt_self x).enumC ?_
    rw [Service.height_eq] at h
    have hm : heightServices x.services ≤ n := by omega
    rw [heightServices_le] at hm
    exact enum_serviceWith _ v x fun c hc => ih c (hm c hc)

-- @@ ToolsChoice
theorem enum_toolsChoice (v : Int) (x : ToolsChoice) :
    EnumC v (@SCH) J.toolsChoice x (x.Listed v) := by
  intro j hj
  obtain ⟨t, c, s⟩ := x
  simp only [J.toolsChoice] at hj
  simp only [ToolsChoice.Listed]
  rw [listed_alt, listed_since]
  split at hj
  · cases hj
  · rename_i h1
    split at hj
    · rename_i ht
      have hcs : c = .nil ∧ s = .nil := by
        cases t <;> cases c <;> cases s <;> simp_all [PSlice.isNil]
      have h := enum_list (fun a _ => enum_tool v a) j hj
      have hn : HasListed v (.place .tools) j := by
        cases t with
        | list xs =>
          simp only [JCodec.pslice, Option.map_eq_some_iff] at hj
          obtain ⟨js, _, rfl⟩ := hj; exact listed_place_arr
        | _ =>
          simp only [JCodec.pslice, Option.some.injEq] at hj
          subst hj; exact listed_null _
      rw [h]
      simp [hn, hcs.1, hcs.2, PSlice.elems]
    · split at hj
      · obtain ⟨ms, rfl⟩ := struct_is_obj hj
        have h : EnumC v (.place .tools) J.toolsChoiceJSON (c, s) (
            (∀ y ∈ c.elems, Component.Listed v y) ∧ (∀ y ∈ s.elems, Service.Listed v y) ∧ True) :=
          enum_struct (enumF_field (some (.list (.place .component))) rfl rfl (ef_list (fun a _ => enum_component v a)) <|
            enumF_field (some (.list (.place .service))) rfl rfl (ef_list (fun a _ => enum_service v a)) enumF_nil)
        have ht : t = .nil := by cases t <;> simp_all [PSlice.isNil]
        rw [h _ hj]
        simp [listed_list_obj, ht, PSlice.elems]
      · cases hj

