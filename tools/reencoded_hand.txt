-- @@ CertificateState
theorem keep_certificateState (n : Nat) (v : Int) : KeepC n v (.place .certificateState) J.certificateState :=
  keep_of_fit (fit_certificateState v)

-- @@ CertificateExtension
theorem keep_certificateExtension (n : Nat) (v : Int) :
    KeepC n v (.place .certificateExtension) J.certificateExtension :=
  keep_of_fit (fit_certificateExtension v)

-- @@ EvidenceIdentityChoice
theorem keep_evidenceIdentityChoice (n : Nat) (v : Int) : KeepC n v (@SCH) J.evidenceIdentityChoice := by
  obtain ⟨I, hz, h⟩ := keep_evidenceIdentity n v
  obtain ⟨L, lz, hl⟩ := keep_list (keep_evidenceIdentity n v)
  let A : PSlice EvidenceIdentity → Prop := fun p => p = .nil ∨
    SpecVersion1_6 ≤ v ∧ Out v (.list (.place .componentIdentityEvidence)) (JCodec.pslice J.evidenceIdentity) p
  let B : Option EvidenceIdentity → Prop := fun o =>
    ∀ i ∈ o, Out v (.place .componentIdentityEvidence) J.evidenceIdentity i
  have key : ∀ o p, A p → B o → (o ≠ none ∨ p ≠ .nil) → Out v (@SCH) J.evidenceIdentityChoice ⟨o, p⟩ := by
    intro o p ha hb hne j hj
    simp only [J.evidenceIdentityChoice] at hj
    cases o with
    | some i =>
      simp only at hj
      split at hj
      · cases hj
      · exact .right (hb i rfl j hj)
    | none =>
      simp only at hj
      rcases hne with hne | hne
      · exact absurd rfl hne
      have hp : ¬ p.isNil = true := fun e => hne ((pslice_isNil_iff p).1 e)
      rw [if_pos hp] at hj
      rcases ha with rfl | ⟨hv, ha⟩
      · exact absurd rfl hne
      · exact .left (.since hv (ha j hj))
  refine ⟨fun c => A c.identities ∧ B c.identity, ⟨.inl rfl, by intro i hi; cases hi⟩, ?_⟩
  rintro j ⟨o, p⟩ x hj hs ⟨ha, hb⟩ hd
  rcases hs.alt with hs | hs
  · obtain ⟨hv, hs⟩ := hs.since
    obtain ⟨js, rfl⟩ := conforms_list_arr hs.declared
    simp only [J.evidenceIdentityChoice] at hd
    cases he : (JCodec.pslice J.evidenceIdentity).dec (.arr js) .nil with
    | none => rw [he] at hd; cases hd
    | some ids =>
      simp only [he, Option.some.injEq] at hd
      subst hd
      have h1 : A ids := .inr ⟨hv, (hl _ _ _ hj hs lz he).2⟩
      refine ⟨⟨h1, hb⟩, key _ _ h1 hb (.inr ?_)⟩
      rintro rfl
      simp only [JCodec.pslice, Option.map_eq_some_iff] at he
      obtain ⟨_, _, e⟩ := he
      cases e
  · obtain ⟨ms, rfl⟩ := conforms_place_obj hs.declared
    simp only [J.evidenceIdentityChoice] at hd
    cases he : J.evidenceIdentity.dec (.obj ms) {} with
    | none => rw [he] at hd; cases hd
    | some i =>
      simp only [he, Option.some.injEq] at hd
      subst hd
      have h1 : B (some i) := fun y hy => by cases hy; exact (h _ _ _ hj hs hz he).2
      exact ⟨⟨ha, h1⟩, key _ _ ha h1 (.inl (by simp))⟩

-- @@ License
theorem keep_license (n : Nat) (v : Int) : KeepC n v (.place .license) J.license := by
  have h : KeepC n v (.place .license) J.licenseAlias :=
    @STRUCT
  obtain ⟨I, hz, h⟩ := h
  refine ⟨I, hz, fun j old x hj hs hi hd => ?_⟩
  obtain ⟨hi, ho⟩ := h j old x hj hs hi hd
  refine ⟨hi, fun i hj => ho i ?_⟩
  simp only [J.license] at hj
  split at hj
  · cases hj
  · split at hj
    · cases hj
    · exact hj

-- @@ MLDatasetChoice
theorem keep_mlDatasetChoice (n : Nat) (v : Int) : KeepC n v (.place .modelDataset) J.mlDatasetChoice := by
  obtain ⟨I, hz, h⟩ := keep_componentData_modelDataset n v
  have key : ∀ x : MLDatasetChoice, (∀ d ∈ x.componentData, Out v (.place .modelDataset) J.componentData d) →
      Out v (.place .modelDataset) J.mlDatasetChoice x := by
    intro x hx j hj
    simp only [J.mlDatasetChoice] at hj
    split at hj
    · simp only [Option.some.injEq] at hj
      subst hj
      simp only [conforms_place, List.mem_singleton, forall_eq]
      exact ⟨.str, rfl, .str _⟩
    · cases hd : x.componentData with
      | none => simp only [hd, Option.some.injEq] at hj; subst hj; simp [conforms_place]
      | some d => simp only [hd] at hj; exact hx d hd j hj
  refine ⟨fun x => ∀ d ∈ x.componentData, Out v (.place .modelDataset) J.componentData d,
    (by intro d hd; cases hd), ?_⟩
  intro j old x hj hs hi hd
  suffices h : ∀ d ∈ x.componentData, Out v (.place .modelDataset) J.componentData d from ⟨h, key x h⟩
  simp only [J.mlDatasetChoice] at hd
  split at hd
  · cases hd
  · split at hd
    · simp only [Option.some.injEq] at hd; subst hd; exact hi
    · split at hd
      · cases hd
      · rename_i d he
        split at hd
        · simp only [Option.some.injEq] at hd
          subst hd
          intro y hy
          cases hy
          exact (h _ _ _ hj hs hz he).2
        · simp only [Option.some.injEq] at hd; subst hd; exact hi

-- @@ AsserterChoice
theorem keep_asserterChoice (n : Nat) (v : Int) : KeepC n v (@SCH) J.asserterChoice := by
  refine ⟨fun x => x = {}, rfl, fun j old x _ hs hi hd => ?_⟩
  subst hi
  suffices h : x = {} by
    subst h
    refine ⟨rfl, fun i hi => ?_⟩
    simp only [J.asserterChoice, Option.some.injEq] at hi
    subst hi
    exact .right (conforms_place.2 (by simp))
  rcases conforms_alt.1 hs.declared with hc | hc
  · obtain ⟨t, rfl⟩ := conforms_str.1 hc
    simp [J.asserterChoice] at hd
  · obtain ⟨ms, rfl⟩ := conforms_place_obj hc
    simp [J.asserterChoice, rawMember_undeclared hc (k := "organization") (by decide +kernel),
      rawMember_undeclared hc (k := "individual") (by decide +kernel),
      rawMember_undeclared hc (k := "ref") (by decide +kernel)] at hd
    exact hd.symm

-- @@ PatentChoice
theorem keep_patentChoice (n : Nat) (v : Int) : KeepC n v (.place .patentOrFamily) J.patentChoice := by
  obtain ⟨I, hz, h⟩ := keep_patent n v
  obtain ⟨L, lz, hl⟩ := keep_patentFamily n v
  have key : ∀ x : PatentChoice, (∀ d ∈ x.patent, Out v (.place .patentOrFamily) J.patent d) ∧
      (∀ d ∈ x.patentFamily, Out v (.place .patentOrFamily) J.patentFamily d) →
      Out v (.place .patentOrFamily) J.patentChoice x := by
    rintro ⟨a, b⟩ ⟨h1, h2⟩ j hj
    cases a <;> cases b <;> simp only [J.patentChoice] at hj
    · simp only [Option.some.injEq] at hj; subst hj; simp [conforms_place]
    · exact h2 _ rfl j hj
    · exact h1 _ rfl j hj
    · exact h1 _ rfl j hj
  refine ⟨fun x => (∀ d ∈ x.patent, Out v (.place .patentOrFamily) J.patent d) ∧
    (∀ d ∈ x.patentFamily, Out v (.place .patentOrFamily) J.patentFamily d),
    ⟨(by intro d hd; cases hd), (by intro d hd; cases hd)⟩, ?_⟩
  intro j old x hj hs hi hd
  suffices h : (∀ d ∈ x.patent, Out v (.place .patentOrFamily) J.patent d) ∧
    (∀ d ∈ x.patentFamily, Out v (.place .patentOrFamily) J.patentFamily d) from ⟨h, key x h⟩
  simp only [J.patentChoice] at hd
  split at hd
  · cases hd
  · split at hd
    · split at hd
      · cases hd
      · rename_i q he
        simp only [Option.some.injEq] at hd
        subst hd
        exact ⟨hi.1, fun y hy => by cases hy; exact (hl _ _ _ hj hs lz he).2⟩
    · split at hd
      · cases hd
      · rename_i q he
        simp only [Option.some.injEq] at hd
        subst hd
        exact ⟨fun y hy => by cases hy; exact (h _ _ _ hj hs hz he).2, hi.2⟩

-- @@ EnvironmentVariableChoice
theorem keep_environmentVariableChoice (n : Nat) (v : Int) : KeepC n v (@SCH) J.environmentVariableChoice :=
  keep_of_fit (fit_environmentVariableChoice v)

-- @@ Pedigree
theorem keep_pedigreeWith (C : JCodec Component) (n : Nat) (v : Int) (hC : KeepC n v (.place .component) C) :
    KeepC n v (.place .@PED) (J.pedigree C) :=
  @STRUCT

-- @@ Component
theorem keep_componentWith (C : JCodec Component) (n : Nat) (v : Int) (hC : KeepC n v (.place .component) C) :
    KeepC (n + 1) v (.place .component) (J.componentWith C) :=
  have hP := keep_pedigreeWith C n v hC
  @STRUCT'

theorem keep_component (n : Nat) (v : Int) : KeepC n v (.place .component) J.component := by
  induction n with
  | zero => exact ⟨fun _ => True, trivial, fun j old x hj => by omega⟩
  | succ n ih =>
    obtain ⟨I, hz, h⟩ := keep_componentWith _ n v ih
    refine ⟨I, hz, fun j old x hj hs hi hd => ?_⟩
    rw [component_dec] at hd
    obtain ⟨hi, ho⟩ := h j old x hj hs hi hd
    exact ⟨hi, fun i hi => ho i (by rw [← component_enc]; exact hi)⟩

-- @@ Service
theorem keep_serviceWith (C : JCodec Service) (n : Nat) (v : Int) (hC : KeepC n v (.place .service) C) :
    KeepC (n + 1) v (.place .service) (J.serviceWith C) :=
  @STRUCT'

theorem keep_service (n : Nat) (v : Int) : KeepC n v (.place .service) J.service := by
  induction n with
  | zero => exact ⟨fun _ => True, trivial, fun j old x hj => by omega⟩
  | succ n ih =>
    obtain ⟨I, hz, h⟩ := keep_serviceWith _ n v ih
    refine ⟨I, hz, fun j old x hj hs hi hd => ?_⟩
    rw [service_dec] at hd
    obtain ⟨hi, ho⟩ := h j old x hj hs hi hd
    exact ⟨hi, fun i hi => ho i (by rw [← service_enc]; exact hi)⟩

-- @@ ToolsChoice
theorem keep_toolsChoiceJSON (n : Nat) (v : Int) : KeepC n v (.place .tools) J.toolsChoiceJSON :=
  keep_struct [] [] ["components", "services"] (fun _ => rfl) (by simp) rfl (by decide +kernel) (by decide +kernel) (
    keepF_field (.list (.place .component)) rfl (keep_list (keep_component n v)) (.inl rfl) <|
    keepF_field (.list (.place .service)) rfl (keep_list (keep_service n v)) (.inl rfl) keepF_nil)

theorem keep_toolsChoice (n : Nat) (v : Int) : KeepC n v (@SCH) J.toolsChoice := by
  obtain ⟨I, hz, h⟩ := keep_toolsChoiceJSON n v
  obtain ⟨L, lz, hl⟩ := keep_list (keep_tool n v)
  refine ⟨Out v (@SCH) J.toolsChoice, ?_, ?_⟩
  · intro j hj
    simp [J.toolsChoice, PSlice.isNil] at hj
  intro j old x hj hs hi hd
  suffices h : Out v (@SCH) J.toolsChoice x from ⟨h, h⟩
  rcases hs.alt with hs | hs
  · obtain ⟨js, rfl⟩ := conforms_list_arr hs.declared
    simp only [J.toolsChoice] at hd
    cases he : (JCodec.pslice J.tool).dec (.arr js) .nil with
    | none => rw [he] at hd; cases hd
    | some ts =>
      simp only [he, Option.some.injEq] at hd
      subst hd
      intro i hj'
      have := (hl _ _ _ hj hs lz he).2
      cases ts with
      | nil => simp [J.toolsChoice, PSlice.isNil] at hj'
      | nilSlice => exact .left (this i (by simpa [J.toolsChoice, PSlice.isNil] using hj'))
      | list ts => exact .left (this i (by simpa [J.toolsChoice, PSlice.isNil] using hj'))
  · obtain ⟨hv, hs⟩ := hs.since
    obtain ⟨ms, rfl⟩ := conforms_place_obj hs.declared
    simp only [J.toolsChoice] at hd
    cases he : J.toolsChoiceJSON.dec (.obj ms) (.nil, .nil) with
    | none => rw [he] at hd; cases hd
    | some q =>
      simp only [he] at hd
      split at hd
      · rename_i hq
        simp only [Option.some.injEq] at hd
        subst hd
        intro i hj'
        have := (h _ _ _ hj hs hz he).2
        simp only [J.toolsChoice, PSlice.isNil, not_true_eq_false, false_and, if_false, Bool.not_eq_true] at hj' hq
        rw [if_pos hq] at hj'
        exact .right (.since hv (this i hj'))
      · simp only [Option.some.injEq] at hd; subst hd; exact hi
