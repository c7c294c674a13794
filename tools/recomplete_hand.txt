-- @@ CommonCertificateExtension
-- @@ CertificateState
theorem full_certificateState (n : Nat) (v : Int) : FullC n v (.place .certificateState) J.certificateState := by
  refine ⟨fun _ => True, trivial, fun j old x _ hs _ hd => ⟨trivial, fun i hi => (comp_certificateState v x i hi).2 ?_⟩⟩
  simp only [J.certificateState] at hd
  split at hd
  · cases hd
  · split at hd <;> split at hd
    · cases hd
    · simp only [Option.some.injEq] at hd; subst hd; simp [CertificateState.Complete]
    · cases hd
    · simp only [Option.some.injEq] at hd; subst hd; simp [CertificateState.Complete]

-- @@ CertificateExtension
theorem selected_undeclared {v : Int} {p : Place} {ms : List (String × Json)} {k : String}
    (hc : Conforms v (.place p) (.obj ms)) (hk : ∀ m ∈ ms, m.1 ≠ k)
    (hp : (p.members.all fun m => decide (foldKey m.1 = foldKey k → m.1 = k)) = true) : selected k ms = [] := by
  rw [selected_eq_nil]
  intro m hm e
  obtain ⟨s, hs, _⟩ := conforms_place.1 hc m hm
  rw [List.all_eq_true] at hp
  have := hp _ (lookup_mem hs)
  simp only [decide_eq_true_eq] at this
  exact hk m hm (this e)

theorem full_certificateExtension (n : Nat) (v : Int) :
    FullC n v (.place .certificateExtension) J.certificateExtension := by
  obtain ⟨I, hz, h⟩ := full_structD (n := n) (v := v) (p := .certificateExtension) (F := J.commonCertificateExtensionFields)
    (toP := CommonCertificateExtension.toP) (ofP := CommonCertificateExtension.ofP)
    (fun ms => ∃ m ∈ ms, m.1 = "commonExtensionName") [] ["customExtensionName", "customExtensionValue"]
    ["commonExtensionName", "commonExtensionValue"] ["commonExtensionName", "commonExtensionValue"] (fun _ => rfl) (by simp)
    rfl (by simp) (by decide +kernel) (by decide +kernel)
    (fun ms hs hD W hw ha => by
      rcases (required_place.1 hs.required).1 with h | h
      · exact .inl ⟨hw _ (by simp) h.1, hw _ (by simp) h.2⟩
      · exact absurd (.mixed hD h) hs.ample)
    (fullF_field .str rfl (full_plain rfl) (.inr (outR_plain rfl)) (fun _ => nofun) <|
    fullF_field .str rfl (full_plain rfl) (.inl rfl) (fun _ _ => fills_string) fullF_nil)
  let A : CertificateExtension → Prop := fun x =>
    ∀ y ∈ x.common, OutR v (.place .certificateExtension) J.commonCertificateExtension y
  refine ⟨A, (by intro y hy; cases hy), fun j old x hj hs hi hd => ?_⟩
  obtain ⟨ms, rfl⟩ := conforms_place_obj hs.declared
  have hj : Json.depthM ms + 1 < n := hj
  suffices h : A x ∧ (x.common ≠ none ∨ x.custom ≠ none) by
    refine ⟨h.1, fun i hi => ?_⟩
    obtain ⟨h1, h2⟩ := h
    obtain ⟨a, b⟩ := x
    cases a <;> cases b <;> simp only [J.certificateExtension] at hi
    · simp at h2
    · exact outR_of_comp (comp_customCertificateExtension v _) i hi
    · exact h1 _ rfl i hi
    · cases hi
  simp only [J.certificateExtension] at hd
  cases hp : (J.peek "commonExtensionName").dec (.obj ms) "" with
  | none => rw [hp] at hd; cases hd
  | some s =>
    simp only [hp] at hd
    split at hd
    · rename_i hne
      split at hd
      · cases hd
      · rename_i y he
        simp only [Option.some.injEq] at hd
        subst hd
        refine ⟨?_, by simp⟩
        intro z hz'
        cases hz'
        refine (h ms _ y (by omega) hs ?_ hz he).2
        refine Classical.byContradiction fun hn => ?_
        rw [peek_obj, selected_undeclared hs.declared (fun m hm e => hn ⟨m, hm, e⟩) (by decide +kernel)] at hp
        simp only [JCodec.decAll, Option.some.injEq] at hp
        exact hne hp.symm
    · split at hd
      · cases hd
      · simp only [Option.some.injEq] at hd
        subst hd
        exact ⟨hi, by simp⟩

-- @@ EvidenceIdentityChoice
theorem full_evidenceIdentityChoice (n : Nat) (v : Int) : FullC n v (@SCH) J.evidenceIdentityChoice := by
  obtain ⟨I, hz, h⟩ := full_evidenceIdentity n v
  obtain ⟨L, lz, hl⟩ := full_list (full_evidenceIdentity n v)
  let A : PSlice EvidenceIdentity → Prop := fun p =>
    OutR v (.list (.place .componentIdentityEvidence)) (JCodec.pslice J.evidenceIdentity) p
  let B : Option EvidenceIdentity → Prop := fun o =>
    ∀ i ∈ o, OutR v (.place .componentIdentityEvidence) J.evidenceIdentity i
  have key : ∀ o p, A p → B o → OutR v (@SCH) J.evidenceIdentityChoice ⟨o, p⟩ := by
    intro o p ha hb j hj
    simp only [J.evidenceIdentityChoice] at hj
    rw [required_alt, required_since]
    cases o with
    | some i =>
      simp only at hj
      split at hj
      · cases hj
      · have := hb i rfl j hj
        obtain ⟨ms, rfl⟩ := struct_is_obj hj
        exact ⟨required_list_obj, this⟩
    | none =>
      simp only at hj
      split at hj
      · refine ⟨ha j hj, ?_⟩
        cases p with
        | list xs =>
          simp only [JCodec.pslice, Option.map_eq_some_iff] at hj
          obtain ⟨js, _, rfl⟩ := hj; exact required_place_arr
        | _ =>
          simp only [JCodec.pslice, Option.some.injEq] at hj
          subst hj; exact required_null _
      · simp only [Option.some.injEq] at hj
        subst hj
        exact ⟨required_null _, required_null _⟩
  have nil : A .nil := by
    intro j hj
    simp only [JCodec.pslice, Option.some.injEq] at hj
    subst hj
    exact required_null _
  refine ⟨fun c => A c.identities ∧ B c.identity, ⟨nil, by intro i hi; cases hi⟩, ?_⟩
  rintro j ⟨o, p⟩ x hj hs ⟨ha, hb⟩ hd
  rcases hs.alt with hs | hs
  · have hs := hs.since
    obtain ⟨js, rfl⟩ := conforms_list_arr hs.declared
    simp only [J.evidenceIdentityChoice] at hd
    cases he : (JCodec.pslice J.evidenceIdentity).dec (.arr js) .nil with
    | none => rw [he] at hd; cases hd
    | some ids =>
      simp only [he, Option.some.injEq] at hd
      subst hd
      have h1 : A ids := (hl _ _ _ hj hs lz he).2
      exact ⟨⟨h1, hb⟩, key _ _ h1 hb⟩
  · obtain ⟨ms, rfl⟩ := conforms_place_obj hs.declared
    simp only [J.evidenceIdentityChoice] at hd
    cases he : J.evidenceIdentity.dec (.obj ms) {} with
    | none => rw [he] at hd; cases hd
    | some i =>
      simp only [he, Option.some.injEq] at hd
      subst hd
      have h1 : B (some i) := fun y hy => by cases hy; exact (h _ _ _ hj hs hz he).2
      exact ⟨⟨ha, h1⟩, key _ _ ha h1⟩

-- @@ License
theorem full_license (n : Nat) (v : Int) : FullC n v (.place .license) J.license := by
  have h : FullC n v (.place .license) J.licenseAlias :=
    @STRUCT
  obtain ⟨I, hz, h⟩ := h
  refine ⟨I, hz, fun j old x hj hs hi hd => ?_⟩
  obtain ⟨hi, ho⟩ := h j old x hj hs hi hd
  refine ⟨hi, fun i hj => ho i ?_⟩
  simp only [J.license] at hj
  split at hj
  · cases hj
  · split at hj
    · cases hj
    · exact hj

-- @@ MLDatasetChoice
theorem full_mlDatasetChoice (n : Nat) (v : Int) : FullC n v (.place .modelDataset) J.mlDatasetChoice := by
  obtain ⟨I, hz, h⟩ := full_componentData_modelDataset n v
  have key : ∀ x : MLDatasetChoice, (∀ d ∈ x.componentData, OutR v (.place .modelDataset) J.componentData d) →
      OutR v (.place .modelDataset) J.mlDatasetChoice x := by
    intro x hx j hj
    simp only [J.mlDatasetChoice] at hj
    split at hj
    · simp only [Option.some.injEq] at hj
      subst hj
      rw [required_place]
      simp only [List.mem_singleton, forall_eq]
      refine ⟨trivial, fun s hs => ?_⟩
      cases hs
      exact .str _
    · cases hd : x.componentData with
      | none => simp only [hd, Option.some.injEq] at hj; subst hj; simp [required_place, Place.Needs]
      | some d => simp only [hd] at hj; exact hx d hd j hj
  refine ⟨fun x => ∀ d ∈ x.componentData, OutR v (.place .modelDataset) J.componentData d,
    (by intro d hd; cases hd), ?_⟩
  intro j old x hj hs hi hd
  suffices h : ∀ d ∈ x.componentData, OutR v (.place .modelDataset) J.componentData d from ⟨h, key x h⟩
  simp only [J.mlDatasetChoice] at hd
  split at hd
  · cases hd
  · split at hd
    · simp only [Option.some.injEq] at hd; subst hd; exact hi
    · split at hd
      · cases hd
      · rename_i d he
        split at hd
        · simp only [Option.some.injEq] at hd
          subst hd
          intro y hy
          cases hy
          exact (h _ _ _ hj hs hz he).2
        · simp only [Option.some.injEq] at hd; subst hd; exact hi

-- @@ AsserterChoice
theorem full_asserterChoice (n : Nat) (v : Int) : FullC n v (@SCH) J.asserterChoice :=
  full_of_comp (comp_asserterChoice v)

-- @@ PatentChoice
theorem full_patentChoice (n : Nat) (v : Int) : FullC n v (.place .patentOrFamily) J.patentChoice := by
  obtain ⟨I, hz, h⟩ := full_patent n v
  obtain ⟨L, lz, hl⟩ := full_patentFamily n v
  let A : PatentChoice → Prop := fun x => (∀ d ∈ x.patent, OutR v (.place .patentOrFamily) J.patent d) ∧
      (∀ d ∈ x.patentFamily, OutR v (.place .patentOrFamily) J.patentFamily d)
  refine ⟨A, ⟨(by intro d hd; cases hd), (by intro d hd; cases hd)⟩, ?_⟩
  intro j old x hj hs hi hd
  suffices h : A x ∧ (x.patent ≠ none ∨ x.patentFamily ≠ none) by
    refine ⟨h.1, ?_⟩
    obtain ⟨⟨h1, h2⟩, h3⟩ := h
    obtain ⟨a, b⟩ := x
    intro j hj
    cases a <;> cases b <;> simp only [J.patentChoice] at hj
    · simp at h3
    · exact h2 _ rfl j hj
    · exact h1 _ rfl j hj
    · exact h1 _ rfl j hj
  simp only [J.patentChoice] at hd
  split at hd
  · cases hd
  · split at hd
    · split at hd
      · cases hd
      · rename_i q he
        simp only [Option.some.injEq] at hd
        subst hd
        exact ⟨⟨hi.1, fun y hy => by cases hy; exact (hl _ _ _ hj hs lz he).2⟩, by simp⟩
    · split at hd
      · cases hd
      · rename_i q he
        simp only [Option.some.injEq] at hd
        subst hd
        exact ⟨⟨fun y hy => by cases hy; exact (h _ _ _ hj hs hz he).2, hi.2⟩, by simp⟩

-- @@ EnvironmentVariableChoice
theorem full_environmentVariableChoice (n : Nat) (v : Int) : FullC n v (@SCH) J.environmentVariableChoice := by
  refine ⟨fun _ => True, trivial, fun j old x _ hs _ hd =>
    ⟨trivial, fun i hi => (comp_environmentVariableChoice v x i hi).2 fun hv => ?_⟩⟩
  rcases hs.alt with hs | hs
  · obtain ⟨t, rfl⟩ := conforms_str.1 hs.declared
    simp only [J.environmentVariableChoice, Option.some.injEq] at hd
    subst hd
    left
    rintro rfl
    exact hs.ample .blank
  · obtain ⟨ms, rfl⟩ := conforms_place_obj hs.declared
    simp only [J.environmentVariableChoice] at hd
    split at hd
    · cases hd
    · rename_i p he
      split at hd
      · rename_i hp
        simp only [Option.some.injEq] at hd
        subst hd
        right
        refine ⟨p, rfl, ?_⟩
        simpa [Property.isZero, Classical.or_iff_not_imp_left] using hp
      · rename_i hp
        exfalso
        -- the name would be written, were it left out when empty
        let F : JFields Property.P := .field "name" true JCodec.string (.field "value" true JCodec.string .nil)
        obtain ⟨K, kz, kw, ks, ko⟩ : FullF (Json.depthM ms + 1) v .property [] ["name"] F :=
          fullF_field .str rfl (full_plain rfl) (.inl rfl) (fun _ _ => fills_string) <|
          fullF_field .str rfl (full_plain rfl) (.inl rfl) (fun _ _ => fills_string) fullF_nil
        simp only [J.property, JCodec.struct, Option.map_eq_some_iff] at he
        obtain ⟨b, he, rfl⟩ := he
        have same : ∀ (l : List (String × Json)) (c : Property.P), F.decMembers l c = J.propertyFields.decMembers l c := by
          intro l
          induction l with
          | nil => intro c; rfl
          | cons m l ih =>
            intro c
            rw [decMembers_cons, decMembers_cons]
            rw [show J.propertyFields.set m.1 m.2 c = F.set m.1 m.2 c from rfl]
            cases F.set m.1 m.2 c with
            | none => rfl
            | some d => exact ih d
        rw [← same] at he
        have he : F.decMembers ms F.zero = some b := he
        have hk := decMembers_full (names := ["name", "value"]) (lost := []) rfl (by decide +kernel) (by decide +kernel) kw ks
          ms _ b _ (fun m hm => ⟨by have := depth_member hm; omega, hs.member m hm⟩) kz he
        have hw := (ko b _ (by simp) hk).1 "name" (by simp [F, JFields.names]) (by simp)
          (.inr ((required_place.1 hs.required).1 hv))
        simp only [F, JFields.Writes, true_and, nem_string] at hw
        simp only [Property.ofP, Property.isZero, Classical.not_not] at hp
        have hp := of_decide_eq_true hp
        rcases hw with hw | hw | hw
        · exact hw trivial hp.1
        · exact absurd hw.1 (by decide)
        · exact hw

-- @@ Pedigree
theorem full_pedigreeWith (C : JCodec Component) (n : Nat) (v : Int) (hC : FullC n v (.place .component) C) :
    FullC n v (.place .@PED) (J.pedigree C) :=
  @STRUCT

-- @@ Component
theorem full_componentWith (C : JCodec Component) (n : Nat) (v : Int) (hC : FullC n v (.place .component) C) :
    FullC (n + 1) v (.place .component) (J.componentWith C) :=
  have hP := full_pedigreeWith C n v hC
  @STRUCT'

theorem full_component (n : Nat) (v : Int) : FullC n v (.place .component) J.component := by
  induction n with
  | zero => exact ⟨fun _ => True, trivial, fun j old x hj => by omega⟩
  | succ n ih =>
    obtain ⟨I, hz, h⟩ := full_componentWith _ n v ih
    refine ⟨I, hz, fun j old x hj hs hi hd => ?_⟩
    rw [component_dec] at hd
    obtain ⟨hi, ho⟩ := h j old x hj hs hi hd
    exact ⟨hi, fun i hi => ho i (by rw [← component_enc]; exact hi)⟩

-- @@ Service
theorem full_serviceWith (C : JCodec Service) (n : Nat) (v : Int) (hC : FullC n v (.place .service) C) :
    FullC (n + 1) v (.place .service) (J.serviceWith C) :=
  @STRUCT'

theorem full_service (n : Nat) (v : Int) : FullC n v (.place .service) J.service := by
  induction n with
  | zero => exact ⟨fun _ => True, trivial, fun j old x hj => by omega⟩
  | succ n ih =>
    obtain ⟨I, hz, h⟩ := full_serviceWith _ n v ih
    refine ⟨I, hz, fun j old x hj hs hi hd => ?_⟩
    rw [service_dec] at hd
    obtain ⟨hi, ho⟩ := h j old x hj hs hi hd
    exact ⟨hi, fun i hi => ho i (by rw [← service_enc]; exact hi)⟩

-- @@ ToolsChoice
theorem full_toolsChoiceJSON (n : Nat) (v : Int) : FullC n v (.place .tools) J.toolsChoiceJSON :=
  full_struct [] [] ["components", "services"] ["components", "services"] (fun _ => rfl) (by simp) rfl (by simp)
    (by decide +kernel) (by decide +kernel) [] rfl (fun _ _ _ _ _ => trivial) (
    fullF_field (.list (.place .component)) rfl (full_list (full_component n v)) (.inl rfl) (fun _ _ => fills_list) <|
    fullF_field (.list (.place .service)) rfl (full_list (full_service n v)) (.inl rfl) (fun _ _ => fills_list) fullF_nil)

theorem full_toolsChoice (n : Nat) (v : Int) : FullC n v (@SCH) J.toolsChoice := by
  obtain ⟨I, hz, h⟩ := full_toolsChoiceJSON n v
  obtain ⟨L, lz, hl⟩ := full_list (full_tool n v)
  have lft : ∀ (ts : PSlice Tool) i, HasRequired v (.list (.place .tool)) i → (JCodec.pslice J.tool).enc ts = some i →
      HasRequired v (@SCH) i := by
    intro ts i hr hj
    refine .alt hr (.since ?_)
    cases ts with
    | list xs =>
      simp only [JCodec.pslice, Option.map_eq_some_iff] at hj
      obtain ⟨js, _, rfl⟩ := hj; exact required_place_arr
    | _ =>
      simp only [JCodec.pslice, Option.some.injEq] at hj
      subst hj; exact required_null _
  refine ⟨OutR v (@SCH) J.toolsChoice, ?_, ?_⟩
  · intro j hj
    simp [J.toolsChoice, PSlice.isNil] at hj
  intro j old x hj hs hi hd
  suffices h : OutR v (@SCH) J.toolsChoice x from ⟨h, h⟩
  rcases hs.alt with hs | hs
  · obtain ⟨js, rfl⟩ := conforms_list_arr hs.declared
    simp only [J.toolsChoice] at hd
    cases he : (JCodec.pslice J.tool).dec (.arr js) .nil with
    | none => rw [he] at hd; cases hd
    | some ts =>
      simp only [he, Option.some.injEq] at hd
      subst hd
      intro i hj'
      have := (hl _ _ _ hj hs lz he).2
      cases ts with
      | nil => simp [J.toolsChoice, PSlice.isNil] at hj'
      | nilSlice => exact lft _ i (this i (by simpa [J.toolsChoice, PSlice.isNil] using hj')) (by simpa [J.toolsChoice, PSlice.isNil] using hj')
      | list ts => exact lft _ i (this i (by simpa [J.toolsChoice, PSlice.isNil] using hj')) (by simpa [J.toolsChoice, PSlice.isNil] using hj')
  · have hs := hs.since
    obtain ⟨ms, rfl⟩ := conforms_place_obj hs.declared
    simp only [J.toolsChoice] at hd
    cases he : J.toolsChoiceJSON.dec (.obj ms) (.nil, .nil) with
    | none => rw [he] at hd; cases hd
    | some q =>
      simp only [he] at hd
      split at hd
      · rename_i hq
        simp only [Option.some.injEq] at hd
        subst hd
        intro i hj'
        have := (h _ _ _ hj hs hz he).2
        simp only [J.toolsChoice, PSlice.isNil, not_true_eq_false, false_and, if_false, Bool.not_eq_true] at hj' hq
        rw [if_pos hq] at hj'
        have := this i hj'
        obtain ⟨ms, rfl⟩ := struct_is_obj hj'
        exact .alt required_list_obj (.since this)
      · simp only [Option.some.injEq] at hd; subst hd; exact hi
