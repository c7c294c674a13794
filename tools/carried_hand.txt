-- @@ CertificateState
@CARS:PredefinedCertificateState@
@CARS:CustomCertificateState@
theorem car_certificateState (n : Nat) (v : Int) : CarC n v (.place .certificateState) J.certificateState := by
  intro j x j' hj hc hd hr hw
  obtain ⟨ms, rfl⟩ := conforms_place_obj hc
  have hj : Json.depthM ms + 1 < n := hj
  simp only [J.certificateState] at hr
  split at hr
  · cases hr
  · rename_i t ht
    have hs := peek_says (p := .certificateState) rfl (by decide +kernel) hc hd ht
    split at hr
    · rename_i hne
      split at hr
      · cases hr
      · rename_i y hy
        simp only [Option.some.injEq] at hr
        subst hr
        simp only [J.certificateState] at hw
        obtain ⟨ms', rfl, hk⟩ := carS_predefinedCertificateState n v ms y j' (by omega) hc hd hy hw
        exact carried_of hc hk fun m hm hl => .inl ⟨hs.1 hne, hl⟩
    · rename_i hne
      split at hr
      · cases hr
      · rename_i y hy
        simp only [Option.some.injEq] at hr
        subst hr
        simp only [J.certificateState] at hw
        obtain ⟨ms', rfl, hk⟩ := carS_customCertificateState n v ms y j' (by omega) hc hd hy hw
        exact carried_of hc hk fun m hm hl => .inr (blank_of_not_says rfl hc (fun h => hne (hs.2 h)) m hm (by simpa using hl))

-- @@ CertificateExtension
@CARS:CommonCertificateExtension@
@CARS:CustomCertificateExtension@
theorem car_certificateExtension (n : Nat) (v : Int) :
    CarC n v (.place .certificateExtension) J.certificateExtension := by
  intro j x j' hj hc hd hr hw
  obtain ⟨ms, rfl⟩ := conforms_place_obj hc
  have hj : Json.depthM ms + 1 < n := hj
  simp only [J.certificateExtension] at hr
  split at hr
  · cases hr
  · rename_i t ht
    have hs := peek_says (p := .certificateExtension) rfl (by decide +kernel) hc hd ht
    split at hr
    · rename_i hne
      split at hr
      · cases hr
      · rename_i y hy
        simp only [Option.some.injEq] at hr
        subst hr
        simp only [J.certificateExtension] at hw
        obtain ⟨ms', rfl, hk⟩ := carS_commonCertificateExtension n v ms y j' (by omega) hc hd hy hw
        exact carried_of hc hk fun m hm hl => .inl (.inl ⟨hs.1 hne, hl⟩)
    · rename_i hne
      split at hr
      · cases hr
      · rename_i y hy
        simp only [Option.some.injEq] at hr
        subst hr
        simp only [J.certificateExtension] at hw
        obtain ⟨ms', rfl, hk⟩ := carS_customCertificateExtension n v ms y j' (by omega) hc hd hy hw
        have hne : ¬ Says "commonExtensionName" ms := fun h => hne (hs.2 h)
        refine carried_of hc hk fun m hm hl => ?_
        simp only [List.mem_cons, List.not_mem_nil, or_false] at hl
        rcases hl with hl | hl
        · exact .inr (blank_of_not_says rfl hc hne m hm hl)
        · exact .inl (.inr ⟨hne, hl⟩)

-- @@ EvidenceIdentityChoice
theorem car_evidenceIdentityChoice (n : Nat) (v : Int) : CarC n v (@SCH) J.evidenceIdentityChoice := by
  intro j x j' hj hc hd hr hw
  rw [conforms_alt, conforms_since] at hc
  rcases hc with ⟨hv, hc⟩ | hc
  · have h := car_list (car_evidenceIdentity n v)
    cases hc with
    | list hc' =>
      rename_i js
      simp only [J.evidenceIdentityChoice] at hr
      split at hr
      · cases hr
      · rename_i ids hi
        simp only [Option.some.injEq] at hr
        subst hr
        have hne : ids.isNil = false := by
          simp only [JCodec.pslice, Option.map_eq_some_iff] at hi
          obtain ⟨xs, _, rfl⟩ := hi; rfl
        simp only [J.evidenceIdentityChoice, hne, Bool.false_eq_true, not_false_eq_true, if_true] at hw
        exact .left (.since (h _ ids j' hj (.list hc') hd hi hw))
  · have h := car_evidenceIdentity n v
    obtain ⟨ms, rfl⟩ := conforms_place_obj hc
    simp only [J.evidenceIdentityChoice] at hr
    split at hr
    · cases hr
    · rename_i i hi
      simp only [Option.some.injEq] at hr
      subst hr
      simp only [J.evidenceIdentityChoice, PSlice.isNil, not_true_eq_false, if_false] at hw
      exact .right (h _ i j' hj hc hd hi hw)

-- @@ License
theorem car_license (n : Nat) (v : Int) : CarC n v (.place .license) J.license := by
  have h : CarC n v (.place .license) J.licenseAlias :=
    @STRUCT
  intro j x j' hj hc hd hr hw
  refine h j x j' hj hc hd hr ?_
  simp only [J.license] at hw
  split at hw
  · cases hw
  · split at hw
    · cases hw
    · exact hw

-- @@ MLDatasetChoice
@CARS:ComponentData:modelDataset@
theorem car_mlDatasetChoice (n : Nat) (v : Int) : CarC n v (.place .modelDataset) J.mlDatasetChoice := by
  intro j x j' hj hc hd hr hw
  obtain ⟨ms, rfl⟩ := conforms_place_obj hc
  have hj : Json.depthM ms + 1 < n := hj
  simp only [J.mlDatasetChoice] at hr
  split at hr
  · cases hr
  · rename_i t ht
    have hs := peek_says (p := .modelDataset) rfl (by decide +kernel) hc hd ht
    split at hr
    · rename_i hne
      simp only [Option.some.injEq] at hr
      subst hr
      simp only [J.mlDatasetChoice, hne, ne_eq, not_false_eq_true, if_true, Option.some.injEq] at hw
      subst hw
      have hp : (J.peek "ref").dec (.obj ms) "" = some t := ht
      refine carried_place hc (fun m hm hh => ?_) ?origin
      case origin =>
        intro m hm
        rw [List.mem_singleton] at hm
        subst hm
        obtain ⟨t', ht', hm'⟩ := hs.1 hne
        have htt : t = t' := by
          have h2 := selected_mem (n := "ref") hd.1 hm' rfl hd.2
          simp only [J.peek, JCodec.struct, decMembers_field, Option.map_eq_some_iff, Option.bind_eq_some_iff, h2] at hp
          obtain ⟨b, ⟨a, ha, u, _, rfl⟩, rfl⟩ := hp
          simp only [JCodec.decAll, JCodec.string, Option.some.injEq] at ha
          exact ha.symm
        exact .inr ⟨.str, .str t', rfl, hm', htt ▸ .str t'⟩
      have hk : m.1 = "ref" := by
        by_cases hk : m.1 = "ref"
        · exact hk
        · exact absurd ⟨hs.1 hne, hk⟩ hh
      obtain ⟨t', ht', hm'⟩ := hs.1 hne
      have he : m.2 = .str t' := by
        have h1 := selected_mem (n := "ref") hd.1 hm (by rw [hk]) hd.2
        have h2 := selected_mem (n := "ref") hd.1 hm' rfl hd.2
        rw [h1] at h2
        simpa using h2
      have htt : t = t' := by
        have h2 := selected_mem (n := "ref") hd.1 hm' rfl hd.2
        simp only [J.peek, JCodec.struct, decMembers_field, Option.map_eq_some_iff, Option.bind_eq_some_iff, h2] at ht
        obtain ⟨b, ⟨a, ha, u, _, rfl⟩, rfl⟩ := ht
        simp only [JCodec.decAll, JCodec.string, Option.some.injEq] at ha
        exact ha.symm
      refine .inr ⟨.str, .str t, by rw [hk]; rfl, by rw [hk]; exact List.mem_cons_self, ?_⟩
      rw [he, htt]; exact .str t'
    · rename_i hne
      split at hr
      · cases hr
      · rename_i y hy
        have hb : ∀ m ∈ ms, m.1 ∈ ["ref"] → Hidden .modelDataset ms m.1 ∨ Blank m.2 := fun m hm hl =>
          .inr (blank_of_not_says rfl hc (fun h => hne (hs.2 h)) m hm (by simpa using hl))
        split at hr
        · simp only [Option.some.injEq] at hr
          subst hr
          simp only [J.mlDatasetChoice, ne_eq, not_true_eq_false, if_false] at hw
          obtain ⟨ms', rfl, hk⟩ := carS_componentData_modelDataset n v ms y j' (by omega) hc hd hy hw
          exact carried_of hc hk hb
        · rename_i hz
          have hz : y.isZero = true := by simpa using hz
          have hy0 : y = {} := by
            cases y
            simp only [ComponentData.isZero, decide_eq_true_eq, Option.isNone_iff_eq_none, pslice_isNil_iff] at hz
            obtain ⟨h1, h2, h3, h4, h5, h6, h7, h8, h9⟩ := hz
            subst h1 h2 h3 h4 h5 h6 h7 h8 h9
            rfl
          subst hy0
          simp only [Option.some.injEq] at hr
          subst hr
          have hw : some (Json.obj []) = some j' := hw
          have he : J.componentData.enc {} = some (.obj []) := by
            rfl
          simp only [Option.some.injEq] at hw
          subst hw
          obtain ⟨ms', h, hk⟩ := carS_componentData_modelDataset n v ms {} _ (by omega) hc hd hy he
          cases h
          exact carried_of hc hk hb

-- @@ AsserterChoice
theorem car_asserterChoice (n : Nat) (v : Int) : CarC n v (@SCH) J.asserterChoice := by
  intro j x j' hj hc hd hr hw
  rw [conforms_alt, conforms_str] at hc
  rcases hc with ⟨t, rfl⟩ | hc
  · simp [J.asserterChoice] at hr
  · obtain ⟨ms, rfl⟩ := conforms_place_obj hc
    simp only [J.asserterChoice, rawMember_undeclared hc (k := "organization") (by decide +kernel),
      rawMember_undeclared hc (k := "individual") (by decide +kernel),
      rawMember_undeclared hc (k := "ref") (by decide +kernel), Option.some.injEq] at hr
    subst hr
    simp only [J.asserterChoice, Option.some.injEq] at hw
    subst hw
    exact .right (carried_place hc (fun m hm hh => absurd trivial hh) (by simp))

-- @@ PatentChoice
@CARS:Patent@
@CARS:PatentFamily@
theorem car_patentChoice (n : Nat) (v : Int) : CarC n v (.place .patentOrFamily) J.patentChoice := by
  intro j x j' hj hc hd hr hw
  obtain ⟨ms, rfl⟩ := conforms_place_obj hc
  have hj : Json.depthM ms + 1 < n := hj
  simp only [J.patentChoice] at hr
  split at hr
  · cases hr
  · rename_i t ht
    have hs := peek_says (p := .patentOrFamily) rfl (by decide +kernel) hc hd ht
    split at hr
    · rename_i hne
      split at hr
      · cases hr
      · rename_i y hy
        simp only [Option.some.injEq] at hr
        subst hr
        simp only [J.patentChoice] at hw
        obtain ⟨ms', rfl, hk⟩ := carS_patentFamily n v ms y j' (by omega) hc hd hy hw
        exact carried_of hc hk fun m hm hl => .inl (.inl ⟨hs.1 hne, hl⟩)
    · rename_i hne
      split at hr
      · cases hr
      · rename_i y hy
        simp only [Option.some.injEq] at hr
        subst hr
        simp only [J.patentChoice] at hw
        obtain ⟨ms', rfl, hk⟩ := carS_patent n v ms y j' (by omega) hc hd hy hw
        have hne : ¬ Says "familyId" ms := fun h => hne (hs.2 h)
        refine carried_of hc hk fun m hm hl => ?_
        simp only [List.mem_cons, List.not_mem_nil, or_false] at hl
        rcases hl with hl | hl
        · exact .inr (blank_of_not_says rfl hc hne m hm hl)
        · exact .inl (.inr ⟨hne, hl⟩)

-- @@ EnvironmentVariableChoice
@CARS:Property@
theorem car_environmentVariableChoice (n : Nat) (v : Int) : CarC n v (@SCH) J.environmentVariableChoice := by
  intro j x j' hj hc hd hr hw
  rw [conforms_alt, conforms_str] at hc
  rcases hc with ⟨t, rfl⟩ | hc
  · by_cases ht : t = ""
    · subst ht
      simp only [J.environmentVariableChoice, Option.some.injEq] at hr
      subst hr
      simp only [J.environmentVariableChoice, ne_eq, not_true_eq_false, if_false, Option.some.injEq] at hw
      subst hw
      exact .blank .str (.obj (by simp))
    · simp only [J.environmentVariableChoice, Option.some.injEq] at hr
      subst hr
      simp only [J.environmentVariableChoice, ne_eq, ht, not_false_eq_true, if_true, Option.some.injEq] at hw
      subst hw
      exact .left (.str t)
  · obtain ⟨ms, rfl⟩ := conforms_place_obj hc
    simp only [J.environmentVariableChoice] at hr
    split at hr
    · cases hr
    · rename_i y hy
      split at hr
      · rename_i hz
        simp only [Option.some.injEq] at hr
        subst hr
        simp only [J.environmentVariableChoice, hz] at hw
        exact .right (car_property n v _ y j' hj hc hd hy hw)
      · rename_i hz
        have hz : y.isZero = true := by simpa using hz
        have hj : Json.depthM ms + 1 < n := hj
        simp only [Option.some.injEq] at hr
        subst hr
        simp only [J.environmentVariableChoice, ne_eq, not_true_eq_false, if_false, Option.some.injEq] at hw
        subst hw
        have hy0 : y = {} := by
          cases y
          simp only [Property.isZero, decide_eq_true_eq] at hz
          obtain ⟨h1, h2⟩ := hz
          subst h1 h2
          rfl
        subst hy0
        refine .right (carried_place hc (fun m hm _ => .inl ?_) (by simp))
        exact property_blank hc hd hy m hm

-- @@ Pedigree
theorem car_pedigreeWith (C : JCodec Component) (n : Nat) (v : Int) (hC : CarC n v (.place .component) C) :
    CarC n v (.place .@PED) (J.pedigree C) :=
  @STRUCT

-- @@ Component
theorem car_componentWith (C : JCodec Component) (n : Nat) (v : Int) (hC : CarC n v (.place .component) C) :
    CarC (n + 1) v (.place .component) (J.componentWith C) :=
  have hP := car_pedigreeWith C n v hC
  @STRUCT'

theorem car_component (n : Nat) (v : Int) : CarC n v (.place .component) J.component := by
  induction n with
  | zero => intro j x j' hj; omega
  | succ n ih =>
    intro j x j' hj hc hd hr hw
    rw [component_dec] at hr
    rw [(component_sameAt_self x).enc] at hw
    exact car_componentWith _ n v ih j x j' hj hc hd hr hw

-- @@ Service
theorem car_serviceWith (C : JCodec Service) (n : Nat) (v : Int) (hC : CarC n v (.place .service) C) :
    CarC (n + 1) v (.place .service) (J.serviceWith C) :=
  @STRUCT'

theorem car_service (n : Nat) (v : Int) : CarC n v (.place .service) J.service := by
  induction n with
  | zero => intro j x j' hj; omega
  | succ n ih =>
    intro j x j' hj hc hd hr hw
    rw [service_dec] at hr
    rw [(service_sameAt_self x).enc] at hw
    exact car_serviceWith _ n v ih j x j' hj hc hd hr hw

-- @@ ToolsChoice
theorem car_toolsChoiceJSON (n : Nat) (v : Int) : CarC n v (.place .tools) J.toolsChoiceJSON :=
  car_struct [] ["components", "services"] rfl (by decide +kernel) nofun (fun _ => rfl) (
    carF_field (.list (.place .component)) rfl (car_list (car_component n v)) blank_list (.inl rfl) <|
    carF_field (.list (.place .service)) rfl (car_list (car_service n v)) blank_list (.inl rfl) carF_nil)

theorem car_toolsChoice (n : Nat) (v : Int) : CarC n v (@SCH) J.toolsChoice := by
  intro j x j' hj hc hd hr hw
  rw [conforms_alt, conforms_since] at hc
  rcases hc with hc | ⟨hv, hc⟩
  · cases hc with
    | list hc' =>
      rename_i js
      simp only [J.toolsChoice] at hr
      split at hr
      · cases hr
      · rename_i ts hi
        simp only [Option.some.injEq] at hr
        subst hr
        have hne : ts.isNil = false := by
          simp only [JCodec.pslice, Option.map_eq_some_iff] at hi
          obtain ⟨xs, _, rfl⟩ := hi; rfl
        simp only [J.toolsChoice, hne, isNil_nil, Bool.false_eq_true, not_false_eq_true, not_true_eq_false, or_self,
          and_false, if_true, if_false] at hw
        exact .left (car_list (car_tool n v) _ ts j' hj (.list hc') hd hi hw)
  · obtain ⟨ms, rfl⟩ := conforms_place_obj hc
    simp only [J.toolsChoice] at hr
    split at hr
    · cases hr
    · rename_i p hp
      split at hr
      · rename_i hne
        simp only [Option.some.injEq] at hr
        subst hr
        simp only [J.toolsChoice, isNil_nil, not_true_eq_false, false_and, if_false, hne, if_true] at hw
        exact .right (.since (car_toolsChoiceJSON n v _ p j' hj hc hd hp hw))
      · simp only [Option.some.injEq] at hr
        subst hr
        simp [J.toolsChoice, PSlice.isNil] at hw
