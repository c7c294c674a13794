-- @@ CertificateState
theorem read_peek_state (n : Nat) (v : Int) : ReadC n v (.place .certificateState) (J.peek "state") :=
  read_struct @OTHERS:state:certificateState@ ["state"] rfl (by decide +kernel) (by decide +kernel)
    (readF_field .str rfl (readM_of rfl (read_string n v)) readF_nil)

theorem read_certificateState (n : Nat) (v : Int) : ReadC n v (.place .certificateState) J.certificateState := by
  refine read_calm rfl fun j old hj hc => ?_
  obtain ⟨s, hs⟩ := (read_peek_state n v).accepts (old := "") rfl hj hc
  obtain ⟨p, hp⟩ := (read_predefinedCertificateState n v).accepts (old := {}) rfl hj hc
  obtain ⟨q, hq⟩ := (read_customCertificateState n v).accepts (old := {}) rfl hj hc
  simp only [J.certificateState, hs, hp, hq]
  split <;> simp

-- @@ CertificateExtension
theorem read_peek_commonExtensionName (n : Nat) (v : Int) :
    ReadC n v (.place .certificateExtension) (J.peek "commonExtensionName") :=
  read_struct @OTHERS:commonExtensionName:certificateExtension@ ["commonExtensionName"] rfl (by decide +kernel)
    (by decide +kernel) (readF_field .str rfl (readM_of rfl (read_string n v)) readF_nil)

theorem read_certificateExtension (n : Nat) (v : Int) :
    ReadC n v (.place .certificateExtension) J.certificateExtension := by
  refine read_calm rfl fun j old hj hc => ?_
  obtain ⟨s, hs⟩ := (read_peek_commonExtensionName n v).accepts (old := "") rfl hj hc
  obtain ⟨p, hp⟩ := (read_commonCertificateExtension n v).accepts (old := {}) rfl hj hc
  obtain ⟨q, hq⟩ := (read_customCertificateExtension n v).accepts (old := {}) rfl hj hc
  simp only [J.certificateExtension, hs, hp, hq]
  split <;> simp

-- @@ EvidenceIdentityChoice
theorem read_evidenceIdentityChoice (n : Nat) (v : Int) : ReadC n v (@SCH) J.evidenceIdentityChoice := by
  intro j old hj hc
  rw [conforms_alt, conforms_since] at hc
  rcases hc with ⟨hv, hc⟩ | hc
  · have h := read_list (read_evidenceIdentity n v) j .nil hj hc
    cases hc with
    | list hc =>
      rename_i js
      have hi : Refused (@SCH) (.arr js) ↔ Refused (.list (.place .componentIdentityEvidence)) (.arr js) := by
        constructor
        · intro h
          cases h with
          | left h => cases h; assumption
          | right h => cases h
        · exact fun h => .left (.since h)
      rw [hi, ← h]
      simp only [J.evidenceIdentityChoice]
      split <;> simp_all
  · have h := read_evidenceIdentity n v j {} hj hc
    obtain ⟨ms, rfl⟩ := conforms_place_obj hc
    have hi : Refused (@SCH) (.obj ms) ↔ Refused (.place .componentIdentityEvidence) (.obj ms) := by
      constructor
      · intro h
        cases h with
        | left h => cases h with | since h => cases h
        | right h => exact h
      · exact fun h => .right h
    rw [hi, ← h]
    simp only [J.evidenceIdentityChoice]
    split <;> simp_all

-- @@ License
theorem read_license (n : Nat) (v : Int) : ReadC n v (.place .license) J.license :=
  show ReadC n v (.place .license) J.licenseAlias from
  @STRUCT

-- @@ MLDatasetChoice
theorem read_peek_ref (n : Nat) (v : Int) : ReadC n v (.place .modelDataset) (J.peek "ref") :=
  read_struct @OTHERS:ref:modelDataset@ ["ref"] rfl (by decide +kernel) (by decide +kernel)
    (readF_field .str rfl (readM_of rfl (read_string n v)) readF_nil)

theorem read_mlDatasetChoice (n : Nat) (v : Int) : ReadC n v (.place .modelDataset) J.mlDatasetChoice := by
  refine read_calm rfl fun j old hj hc => ?_
  obtain ⟨s, hs⟩ := (read_peek_ref n v).accepts (old := "") rfl hj hc
  obtain ⟨p, hp⟩ := (read_componentData_modelDataset n v).accepts (old := {}) rfl hj hc
  simp only [J.mlDatasetChoice, hs, hp]
  split
  · simp
  · split <;> simp

-- @@ AsserterChoice
theorem rawMember_undeclared {v : Int} {p : Place} {ms : List (String × Json)} {k : String}
    (hc : Conforms v (.place p) (.obj ms)) (h : (p.members.all fun m => foldKey m.1 ≠ foldKey k) = true) :
    J.rawMember k ms = none := by
  have : selected k ms = [] := by
    simp only [selected, List.map_eq_nil_iff, List.filter_eq_nil_iff]
    intro m hm
    rw [conforms_place] at hc
    obtain ⟨s, hs, _⟩ := hc m hm
    rw [List.all_eq_true] at h
    simpa using h _ (lookup_mem hs)
  simp [J.rawMember, this]

theorem readM_asserterChoice {n : Nat} {v : Int} :
    ReadM n v .patentAssertion "asserter" (@SCH) J.asserterChoice := by
  intro j old hj hc
  rw [conforms_alt, conforms_str] at hc
  have hn : ¬ Refused (@SCH) j := not_refused rfl
  have ho : Place.patentAssertion.odd.lookup "asserter" = some .string := rfl
  rcases hc with ⟨t, rfl⟩ | hc
  · simp [J.asserterChoice, ho, Odd.Has]
  · obtain ⟨ms, rfl⟩ := conforms_place_obj hc
    simp [J.asserterChoice, ho, Odd.Has, hn, rawMember_undeclared hc (k := "organization") (by decide +kernel),
      rawMember_undeclared hc (k := "individual") (by decide +kernel),
      rawMember_undeclared hc (k := "ref") (by decide +kernel)]

-- @@ PatentChoice
theorem read_peek_familyId (n : Nat) (v : Int) : ReadC n v (.place .patentOrFamily) (J.peek "familyId") :=
  read_struct @OTHERS:familyId:patentOrFamily@ ["familyId"] rfl
    (by decide +kernel) (by decide +kernel) (readF_field .str rfl (readM_of rfl (read_string n v)) readF_nil)

theorem read_patentChoice (n : Nat) (v : Int) : ReadC n v (.place .patentOrFamily) J.patentChoice := by
  refine read_calm rfl fun j old hj hc => ?_
  obtain ⟨s, hs⟩ := (read_peek_familyId n v).accepts (old := "") rfl hj hc
  obtain ⟨p, hp⟩ := (read_patent n v).accepts (old := {}) rfl hj hc
  obtain ⟨q, hq⟩ := (read_patentFamily n v).accepts (old := {}) rfl hj hc
  simp only [J.patentChoice, hs, hp, hq]
  split <;> simp

-- @@ EnvironmentVariableChoice
theorem read_environmentVariableChoice (n : Nat) (v : Int) : ReadC n v (@SCH) J.environmentVariableChoice := by
  refine read_calm rfl fun j old hj hc => ?_
  rw [conforms_alt, conforms_str] at hc
  rcases hc with ⟨t, rfl⟩ | hc
  · simp [J.environmentVariableChoice]
  · obtain ⟨p, hp⟩ := (read_property n v).accepts (old := {}) rfl hj hc
    obtain ⟨ms, rfl⟩ := conforms_place_obj hc
    simp only [J.environmentVariableChoice, hp]
    split <;> simp

-- @@ Pedigree
theorem read_pedigreeWith (C : JCodec Component) (n : Nat) (v : Int) (hC : ReadC n v (.place .component) C) :
    ReadC n v (.place .@PED) (J.pedigree C) :=
  @STRUCT

-- @@ Component
theorem read_componentWith (C : JCodec Component) (n : Nat) (v : Int) (hC : ReadC n v (.place .component) C) :
    ReadC (n + 1) v (.place .component) (J.componentWith C) :=
  have hP := read_pedigreeWith C n v hC
  @STRUCT'

theorem read_component (n : Nat) (v : Int) : ReadC n v (.place .component) J.component := by
  induction n with
  | zero => intro j old hj; omega
  | succ n ih =>
    intro j old hj hc
    rw [component_dec]
    exact read_componentWith _ n v ih j old hj hc

-- @@ Service
theorem read_serviceWith (C : JCodec Service) (n : Nat) (v : Int) (hC : ReadC n v (.place .service) C) :
    ReadC (n + 1) v (.place .service) (J.serviceWith C) :=
  @STRUCT'

theorem read_service (n : Nat) (v : Int) : ReadC n v (.place .service) J.service := by
  induction n with
  | zero => intro j old hj; omega
  | succ n ih =>
    intro j old hj hc
    rw [service_dec]
    exact read_serviceWith _ n v ih j old hj hc

-- @@ ToolsChoice
theorem read_toolsChoiceJSON (n : Nat) (v : Int) : ReadC n v (.place .tools) J.toolsChoiceJSON :=
  read_struct [] ["components", "services"] rfl (by decide +kernel) (by decide +kernel) (
    readF_field (.list (.place .component)) rfl (readM_of rfl (read_list (read_component n v))) <|
    readF_field (.list (.place .service)) rfl (readM_of rfl (read_list (read_service n v))) readF_nil)

theorem read_toolsChoice (n : Nat) (v : Int) : ReadC n v (@SCH) J.toolsChoice := by
  intro j old hj hc
  rw [conforms_alt, conforms_since] at hc
  rcases hc with hc | ⟨hv, hc⟩
  · have h := read_list (read_tool n v) j .nil hj hc
    cases hc with
    | list hc =>
      rename_i js
      have hi : Refused (@SCH) (.arr js) ↔ Refused (.list (.place .tool)) (.arr js) := by
        constructor
        · intro h
          cases h with
          | left h => exact h
          | right h => cases h with | since h => cases h
        · exact fun h => .left h
      rw [hi, ← h]
      simp only [J.toolsChoice]
      split <;> simp_all
  · have h := read_toolsChoiceJSON n v j (.nil, .nil) hj hc
    obtain ⟨ms, rfl⟩ := conforms_place_obj hc
    have hi : Refused (@SCH) (.obj ms) ↔ Refused (.place .tools) (.obj ms) := by
      constructor
      · intro h
        cases h with
        | left h => cases h
        | right h => cases h; assumption
      · exact fun h => .right (.since h)
    rw [hi, ← h]
    simp only [J.toolsChoice]
    cases hd : J.toolsChoiceJSON.dec (.obj ms) (.nil, .nil) with
    | none => simp
    | some p => simp only [reduceCtorEq, iff_false]; split <;> simp
