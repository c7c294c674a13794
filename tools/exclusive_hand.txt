-- @@ CertificateState
theorem excl_certificateState (v : Int) (x : CertificateState) :
    ExclC v (.place .certificateState) J.certificateState x True := by
  intro j hj
  obtain ⟨a, b⟩ := x
  cases a <;> cases b <;> simp only [J.certificateState] at hj
  · simp only [Option.some.injEq] at hj; subst hj
    simp [exclusive_place, Place.Permits]
  · exact excl_customCertificateState v _ j hj
  · exact excl_predefinedCertificateState v _ j hj
  · cases hj

-- @@ CertificateExtension
theorem excl_certificateExtension (v : Int) (x : CertificateExtension) :
    ExclC v (.place .certificateExtension) J.certificateExtension x True := by
  intro j hj
  obtain ⟨a, b⟩ := x
  cases a <;> cases b <;> simp only [J.certificateExtension] at hj
  · simp only [Option.some.injEq] at hj; subst hj
    simp [exclusive_place, Place.Permits]
  · exact excl_customCertificateExtension v _ j hj
  · exact excl_commonCertificateExtension v _ j hj
  · cases hj

-- @@ EvidenceIdentityChoice
theorem excl_evidenceIdentityChoice (v : Int) (x : EvidenceIdentityChoice) :
    ExclC v (@SCH) J.evidenceIdentityChoice x True := by
  intro j hj
  obtain ⟨a, p⟩ := x
  simp only [J.evidenceIdentityChoice] at hj
  rw [exclusive_alt, exclusive_since]
  cases a with
  | some i =>
    simp only at hj
    split at hj
    · cases hj
    · rename_i hp
      have hp : p = .nil := by cases p <;> simp_all [PSlice.isNil]
      subst hp
      obtain ⟨ms, rfl⟩ := struct_is_obj hj
      have := excl_evidenceIdentity v i _ hj
      simp [exclusive_list_obj, this, PSlice.elems]
  | none =>
    simp only at hj
    split at hj
    · have h := excl_list (s := .place .componentIdentityEvidence) (fun _ => trivial) (fun a _ => excl_evidenceIdentity v a) j hj
      have hn : HasExclusive v (.place .componentIdentityEvidence) j := by
        cases p with
        | list xs =>
          simp only [JCodec.pslice, Option.map_eq_some_iff] at hj
          obtain ⟨js, _, rfl⟩ := hj; exact exclusive_place_arr
        | _ =>
          simp only [JCodec.pslice, Option.some.injEq] at hj
          subst hj; exact exclusive_null _
      rw [h]
      simp [hn]
    · rename_i hp
      have hp : p = .nil := by cases p <;> simp_all [PSlice.isNil]
      simp only [Option.some.injEq] at hj
      subst hj hp
      simp [exclusive_null, PSlice.elems]

-- @@ License
theorem excl_license (v : Int) (x : License) : ExclC v (.place .license) J.license x (x.Exclusive v) := by
  suffices h : ExclC v (.place .license) J.licenseAlias x (x.Exclusive v) by
    intro j hj
    simp only [J.license] at hj
    split at hj
    · cases hj
    · split at hj
      · cases hj
      · exact h j hj
  refine ExclC.congr (excl_struct (
    @FIELDS)) ?_
  simp [Place.Permits, License.Exclusive, License.toP, J.licenseFields, JFields.Writes, nem_string, nem_bomReference, nem_option, nem_pslice]

-- @@ MLDatasetChoice
theorem excl_mlDatasetChoice (v : Int) (x : MLDatasetChoice) :
    ExclC v (.place .modelDataset) J.mlDatasetChoice x (x.Exclusive v) := by
  intro j hj
  simp only [J.mlDatasetChoice] at hj
  split at hj
  · rename_i hr
    simp only [Option.some.injEq] at hj
    subst hj
    simp only [MLDatasetChoice.Exclusive, hr, false_implies, iff_true, exclusive_place, List.mem_singleton, forall_eq]
    refine ⟨by simp [Place.Permits], fun s hs => ?_⟩
    cases hs
    exact .str _
  · rename_i hr
    have hr : x.ref = "" := by simpa using hr
    simp only [MLDatasetChoice.Exclusive, hr, true_implies]
    cases hd : x.componentData with
    | none =>
      simp only [hd, Option.some.injEq] at hj; subst hj; simp [exclusive_place, Place.Permits]
    | some d =>
      simp only [hd] at hj
      simpa using excl_componentData_modelDataset v d j hj

-- @@ AsserterChoice
theorem excl_asserterChoice (v : Int) (x : AsserterChoice) :
    ExclC v (@SCH) J.asserterChoice x True := by
  intro j hj
  have hp : ∀ (k : String) (j : Json), Place.asserter.Permits v fun k' => ∃ m ∈ [(k, j)], m.1 = k' := by
    intro k j
    simp only [Place.Permits, List.mem_singleton, exists_eq_left]
    refine ⟨?_, ?_, ?_, ?_, ?_, ?_⟩ <;> rintro ⟨rfl, h⟩ <;> exact absurd h (by decide)
  have no : ∀ (k : String) (j : Json), Place.asserter.members.lookup k = none →
      HasExclusive v (.alt .str (.place .asserter)) (.obj [(k, j)]) := by
    intro k j hk
    rw [exclusive_alt, exclusive_place]
    refine ⟨.str _, hp k j, fun m hm s hs => ?_⟩
    rw [List.mem_singleton] at hm
    subst hm
    rw [hk] at hs
    cases hs
  obtain ⟨a, b, c⟩ := x
  refine iff_true_intro ?_
  cases a with
  | some o =>
    simp only [J.asserterChoice, Option.map_eq_some_iff] at hj
    obtain ⟨j', _, rfl⟩ := hj
    exact no "organization" j' rfl
  | none =>
    cases b with
    | some o =>
      simp only [J.asserterChoice, Option.map_eq_some_iff] at hj
      obtain ⟨j', _, rfl⟩ := hj
      exact no "individual" j' rfl
    | none =>
      cases c with
      | some o =>
        simp only [J.asserterChoice, Option.map_eq_some_iff] at hj
        obtain ⟨j', _, rfl⟩ := hj
        exact no "ref" j' rfl
      | none =>
        simp only [J.asserterChoice, Option.some.injEq] at hj
        subst hj
        exact .alt (.str _) (.place (by simp [Place.Permits]) (by simp))

-- @@ PatentChoice
theorem excl_patentChoice (v : Int) (x : PatentChoice) :
    ExclC v (.place .patentOrFamily) J.patentChoice x True := by
  intro j hj
  obtain ⟨a, b⟩ := x
  cases a <;> cases b <;> simp only [J.patentChoice] at hj
  · simp only [Option.some.injEq] at hj; subst hj; simp [exclusive_place, Place.Permits]
  · exact excl_patentFamily v _ j hj
  · exact excl_patent v _ j hj
  · exact excl_patent v _ j hj

-- @@ EnvironmentVariableChoice
theorem excl_environmentVariableChoice (v : Int) (x : EnvironmentVariableChoice) :
    ExclC v (@SCH) J.environmentVariableChoice x True := by
  intro j hj
  have hs : ∀ j, (if x.value ≠ "" then some (Json.str x.value) else some (.obj [])) = some j →
      HasExclusive v (@SCH) j := by
    intro j hj
    split at hj <;> simp only [Option.some.injEq] at hj <;> subst hj <;> rw [exclusive_alt]
    · exact ⟨.str _, exclusive_place_str⟩
    · simp [exclusive_place, Place.Permits, HasExclusive.str]
  simp only [J.environmentVariableChoice] at hj
  refine iff_true_intro ?_
  split at hj
  · split at hj
    · exact exclusive_alt.2 ⟨.str _, (excl_property v _ j hj).2 trivial⟩
    · exact hs j hj
  · exact hs j hj

-- @@ Pedigree
theorem excl_pedigreeWith (C : JCodec Component) (v : Int) (x : Pedigree Component)
    (h_ancestors : ∀ c ∈ x.ancestors.elems, ExclC v (.place .component) C c (c.Exclusive v))
    (h_descendants : ∀ c ∈ x.descendants.elems, ExclC v (.place .component) C c (c.Exclusive v))
    (h_variants : ∀ c ∈ x.variants.elems, ExclC v (.place .component) C c (c.Exclusive v)) :
    ExclC v (.place .@PED) (J.pedigree C) x (ExclusivePedigree v x) := by
  refine ExclC.congr (excl_struct (
    @FIELDS)) ?_
  cases x
  simp only [ExclusivePedigree, Pedigree.toP, exclusiveComponents_iff, and_true, and_assoc, Place.Permits, true_and]

-- @@ Component
theorem excl_componentWith (C : JCodec Component) (v : Int) (x : Component)
    (h_components : ∀ c ∈ x.components.elems, ExclC v (.place .component) C c (c.Exclusive v))
    (h_pedigree : ∀ p ∈ x.pedigree, ExclC v (.place .@PED) (J.pedigree C) p (ExclusivePedigree v p)) :
    ExclC v (.place .component) (J.componentWith C) x (x.Exclusive v) := by
  refine ExclC.congr (excl_struct (
    @FIELDS)) ?_
  cases x
  simp [Place.Permits, J.componentFields, JFields.Writes, Component.Exclusive, Component.toP, exclusiveComponents_iff,
    exclusivePedigreeOpt_iff, nem_string]

theorem excl_component (v : Int) (x : Component) : ExclC v (.place .component) J.component x (x.Exclusive v) := by
  suffices H : ∀ n (x : Component), x.height ≤ n → ExclC v (.place .component) J.component x (x.Exclusive v) from
    H x.height x (Nat.le_refl _)
  intro n
  induction n with
  | zero => intro x h; rw [Component.height_eq] at h; omega
  | succ n ih =>
    intro x h
    refine (component_sameAt_self x).exclC ?_
    rw [Component.height_eq] at h
    have hm : max (heightComponents x.components) (heightPedigreeOpt x.pedigree) ≤ n := by omega
    rw [Nat.max_le] at hm
    have hl : ∀ p : PSlice Component, heightComponents p ≤ n →
        ∀ c ∈ p.elems, ExclC v (.place .component) J.component c (c.Exclusive v) := by
      intro p hp
      rw [heightComponents_le] at hp
      exact fun c hc => ih c (hp c hc)
    refine excl_componentWith _ v x (hl _ hm.1) ?_
    intro p hp
    have hp : x.pedigree = some p := hp
    have hm := hm.2
    simp only [hp, heightPedigreeOpt, heightPedigree_eq, Nat.max_le] at hm
    exact excl_pedigreeWith _ v p (hl _ hm.1) (hl _ hm.2.1) (hl _ hm.2.2)

-- @@ Service
theorem excl_serviceWith (C : JCodec Service) (v : Int) (x : Service)
    (h_services : ∀ c ∈ x.services.elems, ExclC v (.place .service) C c (c.Exclusive v)) :
    ExclC v (.place .service) (J.serviceWith C) x (x.Exclusive v) := by
  refine ExclC.congr (excl_struct (
    @FIELDS)) ?_
  cases x
  simp [Place.Permits, J.serviceFields, JFields.Writes, Service.Exclusive, Service.toP, exclusiveServices_iff]

theorem excl_service (v : Int) (x : Service) : ExclC v (.place .service) J.service x (x.Exclusive v) := by
  suffices H : ∀ n (x : Service), x.height ≤ n → ExclC v (.place .service) J.service x (x.Exclusive v) from
    H x.height x (Nat.le_refl _)
  intro n
  induction n with
  | zero => intro x h; rw [Service.height_eq] at h; omega
  | succ n ih =>
    intro x h
    refine (service_sameAt_self x).exclC ?_
    rw [Service.height_eq] at h
    have hm : heightServices x.services ≤ n := by omega
    rw [heightServices_le] at hm
    exact excl_serviceWith _ v x fun c hc => ih c (hm c hc)

-- @@ ToolsChoice
theorem excl_toolsChoice (v : Int) (x : ToolsChoice) :
    ExclC v (@SCH) J.toolsChoice x (x.Exclusive v) := by
  intro j hj
  obtain ⟨t, c, s⟩ := x
  simp only [J.toolsChoice] at hj
  simp only [ToolsChoice.Exclusive]
  rw [exclusive_alt, exclusive_since]
  split at hj
  · cases hj
  · rename_i h1
    split at hj
    · rename_i ht
      have hcs : c = .nil ∧ s = .nil := by
        cases t <;> cases c <;> cases s <;> simp_all [PSlice.isNil]
      have h := excl_list (s := .place .tool) (fun _ => trivial) (fun a _ => excl_tool v a) j hj
      have hn : HasExclusive v (.place .tools) j := by
        cases t with
        | list xs =>
          simp only [JCodec.pslice, Option.map_eq_some_iff] at hj
          obtain ⟨js, _, rfl⟩ := hj; exact exclusive_place_arr
        | _ =>
          simp only [JCodec.pslice, Option.some.injEq] at hj
          subst hj; exact exclusive_null _
      rw [h]
      simp [hn, hcs.1, hcs.2, PSlice.elems]
    · split at hj
      · obtain ⟨ms, rfl⟩ := struct_is_obj hj
        have h : ExclC v (.place .tools) J.toolsChoiceJSON (c, s) (True ∧
            (∀ y ∈ c.elems, Component.Exclusive v y) ∧ (∀ y ∈ s.elems, Service.Exclusive v y) ∧ True) :=
          excl_struct (exclF_field (some (.list (.place .component))) rfl (exf_list (fun _ => trivial) (fun a _ => excl_component v a)) <|
            exclF_field (some (.list (.place .service))) rfl (exf_list (fun _ => trivial) (fun a _ => excl_service v a)) exclF_nil)
        rw [h _ hj]
        simp [exclusive_list_obj]
      · cases hj

