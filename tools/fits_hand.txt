-- @@ CertificateState
theorem fit_certificateState (v : Int) (x : CertificateState) :
    FitC v (.place .certificateState) J.certificateState x True := by
  intro j hj
  obtain ⟨a, b⟩ := x
  cases a <;> cases b <;> simp only [J.certificateState] at hj
  · simp only [Option.some.injEq] at hj; subst hj; simp [conforms_place]
  · exact fit_customCertificateState v _ j hj
  · exact fit_predefinedCertificateState v _ j hj
  · cases hj

-- @@ CertificateExtension
theorem fit_certificateExtension (v : Int) (x : CertificateExtension) :
    FitC v (.place .certificateExtension) J.certificateExtension x True := by
  intro j hj
  obtain ⟨a, b⟩ := x
  cases a <;> cases b <;> simp only [J.certificateExtension] at hj
  · simp only [Option.some.injEq] at hj; subst hj; simp [conforms_place]
  · exact fit_customCertificateExtension v _ j hj
  · exact fit_commonCertificateExtension v _ j hj
  · cases hj

-- @@ EvidenceIdentityChoice
theorem fit_evidenceIdentityChoice (v : Int) (x : EvidenceIdentityChoice) :
    FitC v (@SCH) J.evidenceIdentityChoice x (x.Fits v) := by
  intro j hj
  obtain ⟨a, p⟩ := x
  simp only [J.evidenceIdentityChoice] at hj
  cases a with
  | some i =>
    simp only at hj
    split at hj
    · cases hj
    · rename_i hp
      have hp : p = .nil := by cases p <;> simp_all [PSlice.isNil]
      subst hp
      obtain ⟨ms, rfl⟩ := struct_obj hj
      have := fit_evidenceIdentity v i _ hj
      simp [conforms_alt, conforms_since, not_conforms_list, this, EvidenceIdentityChoice.Fits]
  | none =>
    simp only at hj
    split at hj
    · rename_i hp
      have hp : p ≠ .nil := by cases p <;> simp_all [PSlice.isNil]
      have h := fitC_since (n := SpecVersion1_6) (fit_list (fun a _ => fit_evidenceIdentity v a)) j hj
      rw [conforms_alt, h]
      have hn : ¬ Conforms v (.place .componentIdentityEvidence) j := by
        cases p with
        | nil => exact absurd rfl hp
        | nilSlice =>
          simp only [JCodec.pslice, Option.some.injEq] at hj
          subst hj; exact not_conforms_null
        | list xs =>
          simp only [JCodec.pslice, Option.map_eq_some_iff] at hj
          obtain ⟨js, _, rfl⟩ := hj; exact not_conforms_place
      simp [hn, EvidenceIdentityChoice.Fits, hp]
    · rename_i hp
      have hp : p = .nil := by cases p <;> simp_all [PSlice.isNil]
      simp only [Option.some.injEq] at hj
      subst hj hp
      simp [not_conforms_null, EvidenceIdentityChoice.Fits]

-- @@ License
theorem fit_license (v : Int) (x : License) : FitC v (.place .license) J.license x (x.Fits v) := by
  suffices h : FitC v (.place .license) J.licenseAlias x (x.Fits v) by
    intro j hj
    simp only [J.license] at hj
    split at hj
    · cases hj
    · split at hj
      · cases hj
      · exact h j hj
  refine FitC.congr (fit_struct (
    @FIELDS)) ?_
  simp only [License.Fits, License.toP, and_true, and_assoc]

-- @@ MLDatasetChoice
theorem fit_mlDatasetChoice (v : Int) (x : MLDatasetChoice) :
    FitC v (.place .modelDataset) J.mlDatasetChoice x (x.Fits v) := by
  intro j hj
  simp only [J.mlDatasetChoice] at hj
  split at hj
  · rename_i hr
    simp only [Option.some.injEq] at hj
    subst hj
    simp only [MLDatasetChoice.Fits, hr, false_implies, iff_true, conforms_place, List.mem_singleton, forall_eq]
    exact ⟨.str, rfl, .str _⟩
  · rename_i hr
    have hr : x.ref = "" := by simpa using hr
    simp only [MLDatasetChoice.Fits, hr, true_implies]
    cases hd : x.componentData with
    | none =>
      simp only [hd, Option.some.injEq] at hj; subst hj; simp [conforms_place]
    | some d =>
      simp only [hd] at hj
      simpa using fit_componentData_modelDataset v d j hj

-- @@ AsserterChoice
theorem fit_asserterChoice (v : Int) (x : AsserterChoice) :
    FitC v (@SCH) J.asserterChoice x (x.Fits v) := by
  intro j hj
  have no : ∀ (k : String) (j : Json), Place.asserter.members.lookup k = none →
      ¬ Conforms v (.alt .str (.place .asserter)) (.obj [(k, j)]) := by
    intro k j hk h
    simp only [conforms_alt, not_conforms_str, false_or, conforms_place, List.mem_singleton, forall_eq, MemberOK,
      hk] at h
    obtain ⟨s, hs, _⟩ := h
    cases hs
  obtain ⟨a, b, c⟩ := x
  simp only [AsserterChoice.Fits]
  cases a with
  | some o =>
    simp only [J.asserterChoice, Option.map_eq_some_iff] at hj
    obtain ⟨j', _, rfl⟩ := hj
    simpa using no "organization" j' rfl
  | none =>
    cases b with
    | some o =>
      simp only [J.asserterChoice, Option.map_eq_some_iff] at hj
      obtain ⟨j', _, rfl⟩ := hj
      simpa using no "individual" j' rfl
    | none =>
      cases c with
      | some o =>
        simp only [J.asserterChoice, Option.map_eq_some_iff] at hj
        obtain ⟨j', _, rfl⟩ := hj
        simpa using no "ref" j' rfl
      | none =>
        simp only [J.asserterChoice, Option.some.injEq] at hj
        subst hj
        simp [conforms_alt, conforms_place]

-- @@ PatentChoice
theorem fit_patentChoice (v : Int) (x : PatentChoice) :
    FitC v (.place .patentOrFamily) J.patentChoice x (x.Fits v) := by
  intro j hj
  obtain ⟨a, b⟩ := x
  cases a <;> cases b <;> simp only [J.patentChoice] at hj
  · simp only [Option.some.injEq] at hj; subst hj; simp [conforms_place, PatentChoice.Fits]
  · simpa [PatentChoice.Fits] using fit_patentFamily v _ j hj
  · simpa [PatentChoice.Fits] using fit_patent v _ j hj
  · simpa [PatentChoice.Fits] using fit_patent v _ j hj

-- @@ EnvironmentVariableChoice
theorem fit_environmentVariableChoice (v : Int) (x : EnvironmentVariableChoice) :
    FitC v (@SCH) J.environmentVariableChoice x True := by
  intro j hj
  have hs : ∀ j, (if x.value ≠ "" then some (Json.str x.value) else some (.obj [])) = some j →
      (Conforms v (@SCH) j ↔ True) := by
    intro j hj
    split at hj <;> (simp only [Option.some.injEq] at hj; subst hj; simp [conforms_alt, conforms_str, conforms_place])
  simp only [J.environmentVariableChoice] at hj
  split at hj
  · split at hj
    · have h := (fit_property v _ j hj).2 trivial
      simp [conforms_alt, h]
    · exact hs j hj
  · exact hs j hj

-- @@ Pedigree
theorem fit_pedigreeWith (C : JCodec Component) (v : Int) (x : Pedigree Component)
    (h_ancestors : ∀ c ∈ x.ancestors.elems, FitC v (.place .component) C c (c.Fits v))
    (h_descendants : ∀ c ∈ x.descendants.elems, FitC v (.place .component) C c (c.Fits v))
    (h_variants : ∀ c ∈ x.variants.elems, FitC v (.place .component) C c (c.Fits v)) :
    FitC v (.place .@PED) (J.pedigree C) x (FitsPedigree v x) := by
  refine FitC.congr (fit_struct (
    @FIELDS)) ?_
  cases x
  simp only [FitsPedigree, Pedigree.toP, fitsComponents_iff, and_true, and_assoc]

-- @@ Component
theorem fit_componentWith (C : JCodec Component) (v : Int) (x : Component)
    (h_components : ∀ c ∈ x.components.elems, FitC v (.place .component) C c (c.Fits v))
    (h_pedigree : ∀ p ∈ x.pedigree, FitC v (.place .@PED) (J.pedigree C) p (FitsPedigree v p)) :
    FitC v (.place .component) (J.componentWith C) x (x.Fits v) := by
  refine FitC.congr (fit_struct (
    @FIELDS)) ?_
  cases x
  simp only [Component.Fits, Component.toP, fitsComponents_iff, fitsPedigreeOpt_iff, and_true, and_assoc]

theorem fit_component (v : Int) (x : Component) : FitC v (.place .component) J.component x (x.Fits v) := by
  suffices H : ∀ n (x : Component), x.height ≤ n → FitC v (.place .component) J.component x (x.Fits v) from
    H x.height x (Nat.le_refl _)
  intro n
  induction n with
  | zero => intro x h; rw [Component.height_eq] at h; omega
  | succ n ih =>
    intro x h
    refine (component_sameAt_self x).fitC ?_
    rw [Component.height_eq] at h
    have hm : max (heightComponents x.components) (heightPedigreeOpt x.pedigree) ≤ n := by omega
    rw [Nat.max_le] at hm
    have hl : ∀ p : PSlice Component, heightComponents p ≤ n →
        ∀ c ∈ p.elems, FitC v (.place .component) J.component c (c.Fits v) := by
      intro p hp
      rw [heightComponents_le] at hp
      exact fun c hc => ih c (hp c hc)
    refine fit_componentWith _ v x (hl _ hm.1) ?_
    intro p hp
    have hp : x.pedigree = some p := hp
    have hm := hm.2
    simp only [hp, heightPedigreeOpt, heightPedigree_eq, Nat.max_le] at hm
    exact fit_pedigreeWith _ v p (hl _ hm.1) (hl _ hm.2.1) (hl _ hm.2.2)

-- @@ Service
theorem fit_serviceWith (C : JCodec Service) (v : Int) (x : Service)
    (h_services : ∀ c ∈ x.services.elems, FitC v (.place .service) C c (c.Fits v)) :
    FitC v (.place .service) (J.serviceWith C) x (x.Fits v) := by
  refine FitC.congr (fit_struct (
    @FIELDS)) ?_
  cases x
  simp only [Service.Fits, Service.toP, fitsServices_iff, and_true, and_assoc]

theorem fit_service (v : Int) (x : Service) : FitC v (.place .service) J.service x (x.Fits v) := by
  suffices H : ∀ n (x : Service), x.height ≤ n → FitC v (.place .service) J.service x (x.Fits v) from
    H x.height x (Nat.le_refl _)
  intro n
  induction n with
  | zero => intro x h; rw [Service.height_eq] at h; omega
  | succ n ih =>
    intro x h
    refine (service_sameAt_self x).fitC ?_
    rw [Service.height_eq] at h
    have hm : heightServices x.services ≤ n := by omega
    rw [heightServices_le] at hm
    exact fit_serviceWith _ v x fun c hc => ih c (hm c hc)

-- @@ ToolsChoice
theorem fit_toolsChoice (v : Int) (x : ToolsChoice) :
    FitC v (@SCH) J.toolsChoice x (x.Fits v) := by
  intro j hj
  obtain ⟨t, c, s⟩ := x
  simp only [J.toolsChoice] at hj
  simp only [ToolsChoice.Fits]
  split at hj
  · cases hj
  · rename_i h1
    simp only [pslice_isNil_iff] at h1
    split at hj
    · rename_i ht
      simp only [pslice_isNil_iff] at ht
      have hcs : c = .nil ∧ s = .nil := by
        refine ⟨Classical.byContradiction fun h => h1 ⟨ht, .inl h⟩, Classical.byContradiction fun h => h1 ⟨ht, .inr h⟩⟩
      have h := fit_list (fun a _ => fit_tool v a) j hj
      have hn : ¬ Conforms v (.place .tools) j := by
        cases t with
        | nil => exact absurd rfl ht
        | nilSlice =>
          simp only [JCodec.pslice, Option.some.injEq] at hj
          subst hj; exact not_conforms_null
        | list xs =>
          simp only [JCodec.pslice, Option.map_eq_some_iff] at hj
          obtain ⟨js, _, rfl⟩ := hj; exact not_conforms_place
      rw [conforms_alt, h, conforms_since]
      simp [hn, hcs, ht]
    · rename_i ht
      simp only [pslice_isNil_iff] at ht
      have ht : t = .nil := Classical.byContradiction ht
      subst ht
      split at hj
      · rename_i hcs
        simp only [pslice_isNil_iff] at hcs
        obtain ⟨ms, rfl⟩ := struct_obj hj
        have h : FitC v (.place .tools) J.toolsChoiceJSON (c, s)
            ((c ≠ .nilSlice ∧ ∀ y ∈ c.elems, Component.Fits v y) ∧
             (s ≠ .nilSlice ∧ ∀ y ∈ s.elems, Service.Fits v y) ∧ True) :=
          fit_struct (fitF_field (some (.list (.place .component))) rfl (ff_list (fun a _ => fit_component v a)) <|
            fitF_field (some (.list (.place .service))) rfl (ff_list (fun a _ => fit_service v a)) fitF_nil)
        have hcs : ¬ (c = .nil ∧ s = .nil) := fun h => hcs.elim (fun k => k h.1) fun k => k h.2
        rw [conforms_alt, conforms_since, h _ hj]
        simp [not_conforms_list, hcs, PSlice.elems]
      · cases hj

