-- @@ License
theorem say_license (n : Nat) : SayC n J.license := by
  intro P hP
  have h : SayC n J.licenseAlias := @STRUCT
  obtain ⟨I, hz, ho, hs⟩ := h P hP
  refine ⟨I, hz, fun x hx j hj => ho x hx j ?_, hs⟩
  simp only [J.license] at hj
  split at hj
  · cases hj
  · split at hj
    · cases hj
    · exact hj

-- @@ EnvironmentVariableChoice
theorem say_environmentVariableChoice (n : Nat) : SayC n J.environmentVariableChoice := by
  intro P hP
  obtain ⟨I, hz, ho, hs⟩ := say_property n P hP
  refine ⟨fun x => P [] (.str x.value) ∧ ∀ p ∈ x.property, I p, ⟨hP _ _ rfl, by intro p hp; cases hp⟩, ?_, ?_⟩
  · rintro ⟨p, s⟩ ⟨h1, h2⟩ j hj
    have val : ∀ j, (if s ≠ "" then some (Json.str s) else some (.obj [])) = some j → All P j := by
      intro j hj
      split at hj <;> simp only [Option.some.injEq] at hj <;> subst hj
      · exact all_str.2 h1
      · exact all_obj.2 (by simp)
    cases p with
    | none => exact val j hj
    | some p =>
      simp only [J.environmentVariableChoice] at hj
      split at hj
      · exact ho p (h2 p rfl) j hj
      · exact val j hj
  · rintro j x y hj ha ⟨h1, h2⟩ hd
    cases j <;> simp only [J.environmentVariableChoice, Option.some.injEq, reduceCtorEq] at hd
    · subst hd; exact ⟨hP _ _ rfl, h2⟩
    · subst hd; exact ⟨all_str.1 ha, h2⟩
    · split at hd
      · cases hd
      · rename_i p he
        split at hd <;> simp only [Option.some.injEq] at hd <;> subst hd
        · exact ⟨h1, fun q hq => by cases hq; exact hs _ _ _ hj ha hz he⟩
        · exact ⟨hP _ _ rfl, h2⟩

-- @@ MLDatasetChoice
theorem say_mlDatasetChoice (n : Nat) : SayC n J.mlDatasetChoice := by
  intro P hP
  obtain ⟨I, hz, ho, hs⟩ := say_componentData n P hP
  refine ⟨fun x => P.below "ref" [] (.str x.ref) ∧ ∀ d ∈ x.componentData, I d,
    ⟨hP.below _ _ _ rfl, by intro p hp; cases hp⟩, ?_, ?_⟩
  · rintro x ⟨h1, h2⟩ j hj
    simp only [J.mlDatasetChoice] at hj
    split at hj
    · simp only [Option.some.injEq] at hj
      subst hj
      refine all_obj.2 fun m hm => ?_
      simp only [List.mem_singleton] at hm
      subst hm
      exact all_str.2 h1
    · split at hj
      · rename_i d hd
        exact ho d (h2 d hd) j hj
      · simp only [Option.some.injEq] at hj
        subst hj
        exact all_obj.2 (by simp)
  · rintro j x y hj ha ⟨h1, h2⟩ hd
    simp only [J.mlDatasetChoice] at hd
    split at hd
    · cases hd
    · rename_i r hr
      split at hd
      · simp only [Option.some.injEq] at hd
        subst hd
        exact ⟨peek_words hP ha hr, h2⟩
      · split at hd
        · cases hd
        · rename_i d he
          split at hd <;> simp only [Option.some.injEq] at hd <;> subst hd
          · exact ⟨h1, fun q hq => by cases hq; exact hs _ _ _ hj ha hz he⟩
          · exact ⟨h1, h2⟩

-- @@ EvidenceIdentityChoice
theorem say_evidenceIdentityChoice (n : Nat) : SayC n J.evidenceIdentityChoice := by
  intro P hP
  obtain ⟨I, hz, ho, hs⟩ := say_evidenceIdentity n P hP
  obtain ⟨L, lz, lo, ls⟩ := say_list (say_evidenceIdentity n) P hP
  refine ⟨fun x => (∀ i ∈ x.identity, I i) ∧ L x.identities, ⟨nofun, lz⟩, ?_, ?_⟩
  · rintro x ⟨h1, h2⟩ j hj
    simp only [J.evidenceIdentityChoice] at hj
    split at hj
    · rename_i i hi
      split at hj
      · cases hj
      · exact ho i (h1 i hi) j hj
    · split at hj
      · exact lo _ h2 j hj
      · simp only [Option.some.injEq] at hj
        subst hj
        exact all_null
  · rintro j x y hj ha ⟨h1, h2⟩ hd
    simp only [J.evidenceIdentityChoice] at hd
    split at hd <;> split at hd
    · cases hd
    · rename_i he
      simp only [Option.some.injEq] at hd
      subst hd
      exact ⟨h1, ls _ _ _ hj ha lz he⟩
    · cases hd
    · rename_i he
      simp only [Option.some.injEq] at hd
      subst hd
      exact ⟨fun q hq => by cases hq; exact hs _ _ _ hj ha hz he, h2⟩

-- @@ CertificateState
theorem say_certificateState (n : Nat) : SayC n J.certificateState := by
  intro P hP
  obtain ⟨I, hz, ho, hs⟩ := say_predefinedCertificateState n P hP
  obtain ⟨L, lz, lo, ls⟩ := say_customCertificateState n P hP
  refine ⟨fun x => (∀ i ∈ x.predefined, I i) ∧ ∀ i ∈ x.custom, L i,
    ⟨nofun, nofun⟩, ?_, ?_⟩
  · rintro ⟨a, b⟩ ⟨h1, h2⟩ j hj
    cases a <;> cases b <;> simp only [J.certificateState, Option.some.injEq, reduceCtorEq] at hj
    · subst hj; exact all_obj.2 (by simp)
    · exact lo _ (h2 _ rfl) j hj
    · exact ho _ (h1 _ rfl) j hj
  · rintro j x y hj ha ⟨h1, h2⟩ hd
    simp only [J.certificateState] at hd
    split at hd
    · cases hd
    · split at hd <;> split at hd
      · cases hd
      · rename_i he
        simp only [Option.some.injEq] at hd
        subst hd
        exact ⟨fun q hq => by cases hq; exact hs _ _ _ hj ha hz he, h2⟩
      · cases hd
      · rename_i he
        simp only [Option.some.injEq] at hd
        subst hd
        exact ⟨h1, fun q hq => by cases hq; exact ls _ _ _ hj ha lz he⟩

-- @@ CertificateExtension
theorem say_certificateExtension (n : Nat) : SayC n J.certificateExtension := by
  intro P hP
  obtain ⟨I, hz, ho, hs⟩ := say_commonCertificateExtension n P hP
  obtain ⟨L, lz, lo, ls⟩ := say_customCertificateExtension n P hP
  refine ⟨fun x => (∀ i ∈ x.common, I i) ∧ ∀ i ∈ x.custom, L i,
    ⟨nofun, nofun⟩, ?_, ?_⟩
  · rintro ⟨a, b⟩ ⟨h1, h2⟩ j hj
    cases a <;> cases b <;> simp only [J.certificateExtension, Option.some.injEq, reduceCtorEq] at hj
    · subst hj; exact all_obj.2 (by simp)
    · exact lo _ (h2 _ rfl) j hj
    · exact ho _ (h1 _ rfl) j hj
  · rintro j x y hj ha ⟨h1, h2⟩ hd
    simp only [J.certificateExtension] at hd
    split at hd
    · cases hd
    · split at hd <;> split at hd
      · cases hd
      · rename_i he
        simp only [Option.some.injEq] at hd
        subst hd
        exact ⟨fun q hq => by cases hq; exact hs _ _ _ hj ha hz he, h2⟩
      · cases hd
      · rename_i he
        simp only [Option.some.injEq] at hd
        subst hd
        exact ⟨h1, fun q hq => by cases hq; exact ls _ _ _ hj ha lz he⟩

-- @@ PatentChoice
theorem say_patentChoice (n : Nat) : SayC n J.patentChoice := by
  intro P hP
  obtain ⟨I, hz, ho, hs⟩ := say_patent n P hP
  obtain ⟨L, lz, lo, ls⟩ := say_patentFamily n P hP
  refine ⟨fun x => (∀ i ∈ x.patent, I i) ∧ ∀ i ∈ x.patentFamily, L i,
    ⟨nofun, nofun⟩, ?_, ?_⟩
  · rintro ⟨a, b⟩ ⟨h1, h2⟩ j hj
    cases a <;> cases b <;> simp only [J.patentChoice, Option.some.injEq, reduceCtorEq] at hj
    · subst hj; first | exact all_null | exact all_obj.2 (by simp)
    · exact lo _ (h2 _ rfl) j hj
    · exact ho _ (h1 _ rfl) j hj
    · exact ho _ (h1 _ rfl) j hj
  · rintro j x y hj ha ⟨h1, h2⟩ hd
    simp only [J.patentChoice] at hd
    split at hd
    · cases hd
    · split at hd <;> split at hd
      · cases hd
      · rename_i he
        simp only [Option.some.injEq] at hd
        subst hd
        exact ⟨h1, fun q hq => by cases hq; exact ls _ _ _ hj ha lz he⟩
      · cases hd
      · rename_i he
        simp only [Option.some.injEq] at hd
        subst hd
        exact ⟨fun q hq => by cases hq; exact hs _ _ _ hj ha hz he, h2⟩

-- @@ AsserterChoice
theorem say_asserterChoice (n : Nat) : SayC n J.asserterChoice := by
  intro P hP
  obtain ⟨A, az, ao, as⟩ := say_organizationalEntity n (P.below "organization") (hP.below _)
  obtain ⟨B, bz, bo, bs⟩ := say_organizationalContact n (P.below "individual") (hP.below _)
  obtain ⟨C, cz, co, cs⟩ := say_bomReference (n := n) (P.below "ref") (hP.below _)
  have one : ∀ k j, All (P.below k) j → All P (.obj [(k, j)]) := fun k j h => all_obj.2 fun m hm => by
    simp only [List.mem_singleton] at hm
    subst hm
    exact h
  refine ⟨fun x => (∀ i ∈ x.organization, A i) ∧ (∀ i ∈ x.individual, B i) ∧ ∀ i ∈ x.bomRef, C i,
    ⟨nofun, nofun, nofun⟩, ?_, ?_⟩
  · rintro ⟨a, b, c⟩ ⟨h1, h2, h3⟩ j hj
    simp only [J.asserterChoice] at hj
    split at hj
    · obtain ⟨i, hi, rfl⟩ := Option.map_eq_some_iff.1 hj
      exact one _ _ (ao _ (h1 _ rfl) i hi)
    · obtain ⟨i, hi, rfl⟩ := Option.map_eq_some_iff.1 hj
      exact one _ _ (bo _ (h2 _ rfl) i hi)
    · obtain ⟨i, hi, rfl⟩ := Option.map_eq_some_iff.1 hj
      exact one _ _ (co _ (h3 _ rfl) i hi)
    · simp only [Option.some.injEq] at hj
      subst hj
      exact all_obj.2 (by simp)
  · rintro j x y hj ha ⟨h1, h2, h3⟩ hd
    cases j <;> simp only [J.asserterChoice, Option.some.injEq, reduceCtorEq] at hd
    · exact hd ▸ ⟨h1, h2, h3⟩
    · rename_i ms
      have hj : Json.depthM ms + 1 < n := hj
      split at hd
      · obtain ⟨i, hi, rfl⟩ := Option.map_eq_some_iff.1 hd
        rename_i h
        have := rawMember_words ha h
        exact ⟨fun q hq => by cases hq; exact as _ _ _ (by omega) this.1 az hi, h2, h3⟩
      · obtain ⟨i, hi, rfl⟩ := Option.map_eq_some_iff.1 hd
        rename_i _ h
        have := rawMember_words ha h
        exact ⟨h1, fun q hq => by cases hq; exact bs _ _ _ (by omega) this.1 bz hi, h3⟩
      · obtain ⟨i, hi, rfl⟩ := Option.map_eq_some_iff.1 hd
        rename_i _ _ h
        have := rawMember_words ha h
        exact ⟨h1, h2, fun q hq => by cases hq; exact cs _ _ _ (by omega) this.1 cz hi⟩
      · simp only [Option.some.injEq] at hd
        exact hd ▸ ⟨h1, h2, h3⟩

-- @@ Pedigree
theorem say_pedigreeWith (C : JCodec Component) (n : Nat) (hC : SayC n C) : SayC n (J.pedigree C) :=
  @STRUCT

-- @@ Component
theorem say_componentWith (C : JCodec Component) (n : Nat) (hC : SayC n C) : SayC (n + 1) (J.componentWith C) :=
  have hP := say_pedigreeWith C n hC
  @STRUCT'

theorem say_component (n : Nat) : SayC n J.component := by
  induction n with
  | zero =>
    intro P hP
    refine ⟨fun x => x = J.component.zero, rfl, fun x hx j hj => ?_, fun j x y hj => by omega⟩
    subst hx
    rw [component_enc] at hj
    have : (J.componentWith J.component).enc J.component.zero = some (.obj [("type", .str ""), ("name", .str "")]) := rfl
    rw [this, Option.some.injEq] at hj
    subst hj
    refine all_obj.2 fun m hm => ?_
    simp only [List.mem_cons, List.not_mem_nil, or_false] at hm
    rcases hm with rfl | rfl <;> exact all_str.2 (hP.below _ _ _ rfl)
  | succ n ih =>
    intro P hP
    obtain ⟨I, hz, ho, hs⟩ := say_componentWith _ n ih P hP
    exact ⟨I, hz, fun x hx j hj => ho x hx j (by rw [← component_enc]; exact hj),
      fun j x y hj ha hx hd => hs j x y hj ha hx (by rw [← component_dec]; exact hd)⟩

-- @@ Service
theorem say_serviceWith (C : JCodec Service) (n : Nat) (hC : SayC n C) : SayC (n + 1) (J.serviceWith C) :=
  @STRUCT'

theorem say_service (n : Nat) : SayC n J.service := by
  induction n with
  | zero =>
    intro P hP
    refine ⟨fun x => x = J.service.zero, rfl, fun x hx j hj => ?_, fun j x y hj => by omega⟩
    subst hx
    rw [service_enc] at hj
    have : (J.serviceWith J.service).enc J.service.zero = some (.obj [("name", .str "")]) := rfl
    rw [this, Option.some.injEq] at hj
    subst hj
    refine all_obj.2 fun m hm => ?_
    simp only [List.mem_cons, List.not_mem_nil, or_false] at hm
    subst hm
    exact all_str.2 (hP.below _ _ _ rfl)
  | succ n ih =>
    intro P hP
    obtain ⟨I, hz, ho, hs⟩ := say_serviceWith _ n ih P hP
    exact ⟨I, hz, fun x hx j hj => ho x hx j (by rw [← service_enc]; exact hj),
      fun j x y hj ha hx hd => hs j x y hj ha hx (by rw [← service_dec]; exact hd)⟩

-- @@ ToolsChoice
theorem say_toolsChoiceJSON (n : Nat) : SayC n J.toolsChoiceJSON :=
  say_struct (fun _ => rfl) (sayF_field (say_list (say_component n)) <| sayF_field (say_list (say_service n)) sayF_nil)

theorem say_toolsChoice (n : Nat) : SayC n J.toolsChoice := by
  intro P hP
  obtain ⟨I, hz, ho, hs⟩ := say_toolsChoiceJSON n P hP
  obtain ⟨L, lz, lo, ls⟩ := say_list (say_tool n) P hP
  refine ⟨fun x => L x.tools ∧ I (x.components, x.services), ⟨lz, hz⟩, ?_, ?_⟩
  · rintro x ⟨h1, h2⟩ j hj
    simp only [J.toolsChoice] at hj
    split at hj
    · cases hj
    · split at hj
      · exact lo _ h1 j hj
      · split at hj
        · exact ho _ h2 j hj
        · cases hj
  · rintro j x y hj ha ⟨h1, h2⟩ hd
    simp only [J.toolsChoice] at hd
    split at hd <;> split at hd
    · cases hd
    · rename_i he
      simp only [Option.some.injEq] at hd
      subst hd
      exact ⟨ls _ _ _ hj ha lz he, hz⟩
    · cases hd
    · rename_i q he
      split at hd <;> simp only [Option.some.injEq] at hd <;> subst hd
      · exact ⟨lz, hs _ _ _ hj ha hz he⟩
      · exact ⟨h1, h2⟩

-- @@ BOM
theorem say_bomWith (sv : JCodec Int) (n : Nat) (hS : SayC n sv) : SayC n (J.bomWith sv) :=
  @STRUCT

/-- The codec of the version of the specification that refuses to write none. -/
def J.someVersion : JCodec Int := { J.specVersion with enc := fun v => if v = 0 then none else J.specVersion.enc v }

theorem say_someVersion (n : Nat) : SayC n J.someVersion := by
  intro P hP
  refine ⟨fun v => v = 0 ∨ P [] (.str (SpecVersion.str v)), .inl rfl, ?_, ?_⟩
  · rintro v hv j hj
    simp only [J.someVersion, J.specVersion] at hj
    split at hj
    · cases hj
    · simp only [Option.some.injEq] at hj
      subst hj
      rcases hv with hv | hv
      · contradiction
      · exact all_str.2 hv
  · intro j x y hn ha hx hd
    clear hn hx
    cases j <;> simp only [J.someVersion, J.specVersion, reduceCtorEq] at hd
    rename_i s
    have : SpecVersion.str y = s := by
      have hm := (Props.specVersionOfString_iff s y).1 hd
      have hall : ∀ q ∈ Props.officialNames.zip Props.allVersions, SpecVersion.str q.2 = q.1 := by decide +kernel
      exact hall _ hm
    exact .inr (this ▸ all_str.1 ha)

theorem someVersion_enc (b : BOM) (h : b.specVersion ≠ 0) : (J.bomWith J.someVersion).enc b = J.bom.enc b := by
  have : J.someVersion.enc b.specVersion = J.specVersion.enc b.specVersion := by simp [J.someVersion, h]
  simp only [J.bom, J.bomWith, JCodec.struct, J.bomFields, BOM.toP, JFields.enc, this]
  rfl

theorem someVersion_dec (j : Json) (b : BOM) : (J.bomWith J.someVersion).dec j b = J.bom.dec j b := by
  have h : ∀ k j b, (J.bomFields J.someVersion).set k j b = (J.bomFields J.specVersion).set k j b := fun _ _ _ => rfl
  have hm : ∀ ms b, (J.bomFields J.someVersion).decMembers ms b = (J.bomFields J.specVersion).decMembers ms b := by
    intro ms
    induction ms with
    | nil => exact fun _ => rfl
    | cons m ms ih =>
      intro b
      simp only [JFields.decMembers, h, ih]
  cases j <;> first | rfl | simp only [J.bom, J.bomWith, JCodec.struct, hm]
