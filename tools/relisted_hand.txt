-- @@ CommonCertificateExtension
-- @@ CertificateState
theorem lst_certificateState (n : Nat) (v : Int) : LstC n v (.place .certificateState) J.certificateState := by
  obtain ⟨I, hz, h⟩ := lst_structD (n := n) (v := v) (p := .certificateState) (F := J.predefinedCertificateStateFields)
    (toP := PredefinedCertificateState.toP) (ofP := PredefinedCertificateState.ofP)
    (fun ms => ∃ m ∈ ms, m.1 = "state") ["state"] ["name", "description"] ["state", "reason"] (fun _ => rfl)
    (fun ms _ hD k hk => by simp only [List.mem_singleton] at hk; subst hk; exact hD)
    rfl (by decide +kernel) (by decide +kernel)
    (lstF_enumReq .str rfl rfl echo_string (by simp) <| lstF_free rfl rfl lstF_nil)
  let A : CertificateState → Prop := fun x =>
    ∀ y ∈ x.predefined, OutL v (.place .certificateState) J.predefinedCertificateState y
  refine ⟨A, (by intro y hy; cases hy), fun j old x hj hs hi hd => ?_⟩
  obtain ⟨ms, rfl⟩ := conforms_place_obj hs.declared
  have hj : Json.depthM ms + 1 < n := hj
  suffices h : A x by
    refine ⟨h, fun i hi => ?_⟩
    obtain ⟨a, b⟩ := x
    cases a <;> cases b <;> simp only [J.certificateState] at hi
    · simp only [Option.some.injEq] at hi
      subst hi
      simp [listed_place]
    · exact outL_of_enum (enum_customCertificateState v _) i hi
    · exact h _ rfl i hi
    · cases hi
  simp only [J.certificateState] at hd
  cases hp : (J.peek "state").dec (.obj ms) "" with
  | none => rw [hp] at hd; cases hd
  | some s =>
    simp only [hp] at hd
    split at hd
    · rename_i hne
      split at hd
      · cases hd
      · rename_i y he
        simp only [Option.some.injEq] at hd
        subst hd
        intro z hz'
        cases hz'
        exact (h ms _ y (by omega) hs (peek_there hs.declared (by decide +kernel) hp hne) hz he).2
    · split at hd
      · cases hd
      · simp only [Option.some.injEq] at hd
        subst hd
        exact hi

-- @@ CertificateExtension
theorem lst_certificateExtension (n : Nat) (v : Int) : LstC n v (.place .certificateExtension) J.certificateExtension := by
  obtain ⟨I, hz, h⟩ := lst_structD (n := n) (v := v) (p := .certificateExtension) (F := J.commonCertificateExtensionFields)
    (toP := CommonCertificateExtension.toP) (ofP := CommonCertificateExtension.ofP)
    (fun ms => ∃ m ∈ ms, m.1 = "commonExtensionName") ["commonExtensionName"] ["customExtensionName", "customExtensionValue"] ["commonExtensionName", "commonExtensionValue"] (fun _ => rfl)
    (fun ms _ hD k hk => by simp only [List.mem_singleton] at hk; subst hk; exact hD)
    rfl (by decide +kernel) (by decide +kernel)
    (lstF_enumReq .str rfl rfl echo_string (by simp) <| lstF_free rfl rfl lstF_nil)
  let A : CertificateExtension → Prop := fun x =>
    ∀ y ∈ x.common, OutL v (.place .certificateExtension) J.commonCertificateExtension y
  refine ⟨A, (by intro y hy; cases hy), fun j old x hj hs hi hd => ?_⟩
  obtain ⟨ms, rfl⟩ := conforms_place_obj hs.declared
  have hj : Json.depthM ms + 1 < n := hj
  suffices h : A x by
    refine ⟨h, fun i hi => ?_⟩
    obtain ⟨a, b⟩ := x
    cases a <;> cases b <;> simp only [J.certificateExtension] at hi
    · simp only [Option.some.injEq] at hi
      subst hi
      simp [listed_place]
    · exact outL_of_enum (enum_customCertificateExtension v _) i hi
    · exact h _ rfl i hi
    · cases hi
  simp only [J.certificateExtension] at hd
  cases hp : (J.peek "commonExtensionName").dec (.obj ms) "" with
  | none => rw [hp] at hd; cases hd
  | some s =>
    simp only [hp] at hd
    split at hd
    · rename_i hne
      split at hd
      · cases hd
      · rename_i y he
        simp only [Option.some.injEq] at hd
        subst hd
        intro z hz'
        cases hz'
        exact (h ms _ y (by omega) hs (peek_there hs.declared (by decide +kernel) hp hne) hz he).2
    · split at hd
      · cases hd
      · simp only [Option.some.injEq] at hd
        subst hd
        exact hi

-- @@ EvidenceIdentityChoice
theorem lst_evidenceIdentityChoice (n : Nat) (v : Int) : LstC n v (@SCH) J.evidenceIdentityChoice := by
  obtain ⟨I, hz, h⟩ := lst_evidenceIdentity n v
  obtain ⟨L, lz, hl⟩ := lst_list (lst_evidenceIdentity n v)
  let A : PSlice EvidenceIdentity → Prop := fun p =>
    OutL v (.list (.place .componentIdentityEvidence)) (JCodec.pslice J.evidenceIdentity) p
  let B : Option EvidenceIdentity → Prop := fun o =>
    ∀ i ∈ o, OutL v (.place .componentIdentityEvidence) J.evidenceIdentity i
  have key : ∀ o p, A p → B o → OutL v (@SCH) J.evidenceIdentityChoice ⟨o, p⟩ := by
    intro o p ha hb j hj
    simp only [J.evidenceIdentityChoice] at hj
    rw [listed_alt, listed_since]
    cases o with
    | some i =>
      simp only at hj
      split at hj
      · cases hj
      · have := hb i rfl j hj
        obtain ⟨ms, rfl⟩ := struct_is_obj hj
        exact ⟨listed_list_obj, this⟩
    | none =>
      simp only at hj
      split at hj
      · refine ⟨ha j hj, ?_⟩
        cases p with
        | list xs =>
          simp only [JCodec.pslice, Option.map_eq_some_iff] at hj
          obtain ⟨js, _, rfl⟩ := hj; exact listed_place_arr
        | _ =>
          simp only [JCodec.pslice, Option.some.injEq] at hj
          subst hj; exact listed_null _
      · simp only [Option.some.injEq] at hj
        subst hj
        exact ⟨listed_null _, listed_null _⟩
  have nil : A .nil := by
    intro j hj
    simp only [JCodec.pslice, Option.some.injEq] at hj
    subst hj
    exact listed_null _
  refine ⟨fun c => A c.identities ∧ B c.identity, ⟨nil, by intro i hi; cases hi⟩, ?_⟩
  rintro j ⟨o, p⟩ x hj hs ⟨ha, hb⟩ hd
  rcases hs.alt with hs | hs
  · have hs := hs.since
    obtain ⟨js, rfl⟩ := conforms_list_arr hs.declared
    simp only [J.evidenceIdentityChoice] at hd
    cases he : (JCodec.pslice J.evidenceIdentity).dec (.arr js) .nil with
    | none => rw [he] at hd; cases hd
    | some ids =>
      simp only [he, Option.some.injEq] at hd
      subst hd
      have h1 : A ids := (hl _ _ _ hj hs lz he).2
      exact ⟨⟨h1, hb⟩, key _ _ h1 hb⟩
  · obtain ⟨ms, rfl⟩ := conforms_place_obj hs.declared
    simp only [J.evidenceIdentityChoice] at hd
    cases he : J.evidenceIdentity.dec (.obj ms) {} with
    | none => rw [he] at hd; cases hd
    | some i =>
      simp only [he, Option.some.injEq] at hd
      subst hd
      have h1 : B (some i) := fun y hy => by cases hy; exact (h _ _ _ hj hs hz he).2
      exact ⟨⟨ha, h1⟩, key _ _ ha h1⟩

-- @@ License
theorem lst_license (n : Nat) (v : Int) : LstC n v (.place .license) J.license := by
  have h : LstC n v (.place .license) J.licenseAlias :=
    @STRUCT
  obtain ⟨I, hz, h⟩ := h
  refine ⟨I, hz, fun j old x hj hs hi hd => ?_⟩
  obtain ⟨hi, ho⟩ := h j old x hj hs hi hd
  refine ⟨hi, fun i hj => ho i ?_⟩
  simp only [J.license] at hj
  split at hj
  · cases hj
  · split at hj
    · cases hj
    · exact hj

-- @@ MLDatasetChoice
theorem lst_mlDatasetChoice (n : Nat) (v : Int) : LstC n v (.place .modelDataset) J.mlDatasetChoice := by
  obtain ⟨I, hz, h⟩ := lst_componentData_modelDataset n v
  have key : ∀ x : MLDatasetChoice, (∀ d ∈ x.componentData, OutL v (.place .modelDataset) J.componentData d) →
      OutL v (.place .modelDataset) J.mlDatasetChoice x := by
    intro x hx j hj
    simp only [J.mlDatasetChoice] at hj
    split at hj
    · simp only [Option.some.injEq] at hj
      subst hj
      rw [listed_place]
      simp only [List.mem_singleton, forall_eq]
      exact ⟨lists_none rfl _, fun s hs => by cases hs; exact .str _⟩
    · cases hd : x.componentData with
      | none => simp only [hd, Option.some.injEq] at hj; subst hj; simp [listed_place]
      | some d => simp only [hd] at hj; exact hx d hd j hj
  refine ⟨fun x => ∀ d ∈ x.componentData, OutL v (.place .modelDataset) J.componentData d,
    (by intro d hd; cases hd), ?_⟩
  intro j old x hj hs hi hd
  suffices h : ∀ d ∈ x.componentData, OutL v (.place .modelDataset) J.componentData d from ⟨h, key x h⟩
  simp only [J.mlDatasetChoice] at hd
  split at hd
  · cases hd
  · split at hd
    · simp only [Option.some.injEq] at hd; subst hd; exact hi
    · split at hd
      · cases hd
      · rename_i d he
        split at hd
        · simp only [Option.some.injEq] at hd
          subst hd
          intro y hy
          cases hy
          exact (h _ _ _ hj hs hz he).2
        · simp only [Option.some.injEq] at hd; subst hd; exact hi

-- @@ AsserterChoice
theorem lst_asserterChoice (n : Nat) (v : Int) : LstC n v (@SCH) J.asserterChoice :=
  lst_of_enum (enum_asserterChoice v)

-- @@ PatentChoice
theorem lst_patentChoice (n : Nat) (v : Int) : LstC n v (.place .patentOrFamily) J.patentChoice := by
  obtain ⟨I, hz, h⟩ := @PATENT
  obtain ⟨L, lz, hl⟩ := lst_patentFamily n v
  let A : PatentChoice → Prop := fun x => (∀ d ∈ x.patent, OutL v (.place .patentOrFamily) J.patent d) ∧
      (∀ d ∈ x.patentFamily, OutL v (.place .patentOrFamily) J.patentFamily d)
  refine ⟨A, ⟨(by intro d hd; cases hd), (by intro d hd; cases hd)⟩, ?_⟩
  intro j old x hj hs hi hd
  obtain ⟨ms, rfl⟩ := conforms_place_obj hs.declared
  have hj' : Json.depthM ms + 1 < n := hj
  suffices h : A x by
    refine ⟨h, ?_⟩
    obtain ⟨h1, h2⟩ := h
    obtain ⟨a, b⟩ := x
    intro j hj
    cases a <;> cases b <;> simp only [J.patentChoice] at hj
    · simp only [Option.some.injEq] at hj
      subst hj
      first | exact listed_null _ | simp [listed_place]
    · exact h2 _ rfl j hj
    · exact h1 _ rfl j hj
    · exact h1 _ rfl j hj
  simp only [J.patentChoice] at hd
  cases hp : (J.peek "familyId").dec (.obj ms) "" with
  | none => rw [hp] at hd; cases hd
  | some t =>
    simp only [hp] at hd
    split at hd
    · split at hd
      · cases hd
      · rename_i q he
        simp only [Option.some.injEq] at hd
        subst hd
        exact ⟨hi.1, fun y hy => by cases hy; exact (hl _ _ _ hj hs lz he).2⟩
    · rename_i ht
      split at hd
      · cases hd
      · rename_i q he
        simp only [Option.some.injEq] at hd
        subst hd
        refine ⟨fun y hy => ?_, hi.2⟩
        cases hy
        refine (h ms _ q (by omega) hs ?_ hz he).2
        rcases (required_place.1 hs.required).1 with hr | hr
        · exact hr.2.2
        · refine absurd ?_ ht
          rw [peek_obj] at hp
          refine decAll_string_ne _ "" t (fun i hi => ?_) (.inr fun e => ?_) hp
          · simp only [selected, List.mem_map, List.mem_filter, decide_eq_true_eq] at hi
            obtain ⟨m, ⟨hm, hk⟩, rfl⟩ := hi
            obtain ⟨s, hs', hc⟩ := conforms_place.1 hs.declared m hm
            have : m.1 = "familyId" := by
              have := lookup_mem hs'
              have hall : (Place.patentOrFamily.members.all fun m => decide (foldKey m.1 = foldKey "familyId" → m.1 = "familyId")) = true := by
                decide +kernel
              rw [List.all_eq_true] at hall
              have := hall _ this
              simp only [decide_eq_true_eq] at this
              exact this hk
            obtain ⟨k, w⟩ := m
            simp only at this hs' hc ⊢
            subst this
            cases hs'
            obtain ⟨u, rfl⟩ := conforms_str.1 hc
            refine ⟨u, fun e => ?_, rfl⟩
            subst e
            exact hs.stated (.family hm)
          · obtain ⟨m, hm, hk⟩ := hr
            simp only [selected, List.map_eq_nil_iff, List.filter_eq_nil_iff, decide_eq_true_eq] at e
            exact e m hm (by rw [hk])

-- @@ EnvironmentVariableChoice
theorem lst_environmentVariableChoice (n : Nat) (v : Int) : LstC n v (@SCH) J.environmentVariableChoice :=
  lst_of_enum (enum_environmentVariableChoice v)

-- @@ Pedigree
theorem lst_pedigreeWith (C : JCodec Component) (n : Nat) (v : Int) (hC : LstC n v (.place .component) C) :
    LstC n v (.place .@PED) (J.pedigree C) :=
  @STRUCT

-- @@ Component
theorem lst_componentWith (C : JCodec Component) (n : Nat) (v : Int) (hC : LstC n v (.place .component) C) :
    LstC (n + 1) v (.place .component) (J.componentWith C) :=
  have hP := lst_pedigreeWith C n v hC
  @STRUCT'

theorem lst_component (n : Nat) (v : Int) : LstC n v (.place .component) J.component := by
  induction n with
  | zero => exact ⟨fun _ => True, trivial, fun j old x hj => by omega⟩
  | succ n ih =>
    obtain ⟨I, hz, h⟩ := lst_componentWith _ n v ih
    refine ⟨I, hz, fun j old x hj hs hi hd => ?_⟩
    rw [component_dec] at hd
    obtain ⟨hi, ho⟩ := h j old x hj hs hi hd
    exact ⟨hi, fun i hi => ho i (by rw [← component_enc]; exact hi)⟩

-- @@ Service
theorem lst_serviceWith (C : JCodec Service) (n : Nat) (v : Int) (hC : LstC n v (.place .service) C) :
    LstC (n + 1) v (.place .service) (J.serviceWith C) :=
  @STRUCT'

theorem lst_service (n : Nat) (v : Int) : LstC n v (.place .service) J.service := by
  induction n with
  | zero => exact ⟨fun _ => True, trivial, fun j old x hj => by omega⟩
  | succ n ih =>
    obtain ⟨I, hz, h⟩ := lst_serviceWith _ n v ih
    refine ⟨I, hz, fun j old x hj hs hi hd => ?_⟩
    rw [service_dec] at hd
    obtain ⟨hi, ho⟩ := h j old x hj hs hi hd
    exact ⟨hi, fun i hi => ho i (by rw [← service_enc]; exact hi)⟩

-- @@ ToolsChoice
theorem lst_toolsChoiceJSON (n : Nat) (v : Int) : LstC n v (.place .tools) J.toolsChoiceJSON :=
  lst_struct [] [] ["components", "services"] (fun _ => rfl) (by simp) rfl (by decide +kernel) (by decide +kernel) (
    lstF_field (.list (.place .component)) rfl rfl (lst_list (lst_component n v)) (.inl rfl) <|
    lstF_field (.list (.place .service)) rfl rfl (lst_list (lst_service n v)) (.inl rfl) lstF_nil)

theorem lst_toolsChoice (n : Nat) (v : Int) : LstC n v (@SCH) J.toolsChoice := by
  obtain ⟨I, hz, h⟩ := lst_toolsChoiceJSON n v
  obtain ⟨L, lz, hl⟩ := lst_list (lst_tool n v)
  have lft : ∀ (ts : PSlice Tool) i, HasListed v (.list (.place .tool)) i → (JCodec.pslice J.tool).enc ts = some i →
      HasListed v (@SCH) i := by
    intro ts i hr hj
    refine .alt hr (.since ?_)
    cases ts with
    | list xs =>
      simp only [JCodec.pslice, Option.map_eq_some_iff] at hj
      obtain ⟨js, _, rfl⟩ := hj; exact listed_place_arr
    | _ =>
      simp only [JCodec.pslice, Option.some.injEq] at hj
      subst hj; exact listed_null _
  refine ⟨OutL v (@SCH) J.toolsChoice, ?_, ?_⟩
  · intro j hj
    simp [J.toolsChoice, PSlice.isNil] at hj
  intro j old x hj hs hi hd
  suffices h : OutL v (@SCH) J.toolsChoice x from ⟨h, h⟩
  rcases hs.alt with hs | hs
  · obtain ⟨js, rfl⟩ := conforms_list_arr hs.declared
    simp only [J.toolsChoice] at hd
    cases he : (JCodec.pslice J.tool).dec (.arr js) .nil with
    | none => rw [he] at hd; cases hd
    | some ts =>
      simp only [he, Option.some.injEq] at hd
      subst hd
      intro i hj'
      have := (hl _ _ _ hj hs lz he).2
      cases ts with
      | nil => simp [J.toolsChoice, PSlice.isNil] at hj'
      | nilSlice => exact lft _ i (this i (by simpa [J.toolsChoice, PSlice.isNil] using hj')) (by simpa [J.toolsChoice, PSlice.isNil] using hj')
      | list ts => exact lft _ i (this i (by simpa [J.toolsChoice, PSlice.isNil] using hj')) (by simpa [J.toolsChoice, PSlice.isNil] using hj')
  · have hs := hs.since
    obtain ⟨ms, rfl⟩ := conforms_place_obj hs.declared
    simp only [J.toolsChoice] at hd
    cases he : J.toolsChoiceJSON.dec (.obj ms) (.nil, .nil) with
    | none => rw [he] at hd; cases hd
    | some q =>
      simp only [he] at hd
      split at hd
      · rename_i hq
        simp only [Option.some.injEq] at hd
        subst hd
        intro i hj'
        have := (h _ _ _ hj hs hz he).2
        simp only [J.toolsChoice, PSlice.isNil, not_true_eq_false, false_and, if_false, Bool.not_eq_true] at hj' hq
        rw [if_pos hq] at hj'
        have := this i hj'
        obtain ⟨ms, rfl⟩ := struct_is_obj hj'
        exact .alt listed_list_obj (.since this)
      · simp only [Option.some.injEq] at hd; subst hd; exact hi
-- @@ PredefinedCertificateState
-- @@ Patent
-- @@ CustomCertificateState
-- @@ CustomCertificateExtension
