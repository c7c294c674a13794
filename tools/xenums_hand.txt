-- @@ CertificateState
theorem xlist_certificateState (v : Int) (x : CertificateState) :
    LsC v .certificateState X.certificateState x (CertificateState.XListed v x) := by
  intro n o ho
  simp only [X.certificateState] at ho
  split at ho
  · cases ho
  · rename_i p hp hc
    have h := ls_struct (v := v) (p := .certificateState) (s := p) (toP := PredefinedCertificateState.toP)
      (ofP := PredefinedCertificateState.ofP) (la_elem le_plain <| la_calm (le_calm rfl) <| la_nil) n o ho
    simpa [CertificateState.XListed, hp, PredefinedCertificateState.toP] using h
  · rename_i c hp hc
    have h := ls_struct (v := v) (p := .certificateState) (s := c) (toP := CustomCertificateState.toP)
      (ofP := CustomCertificateState.ofP)
      (la_calm (le_calm rfl) <| la_calm (le_calm rfl) <| la_calm (le_calm rfl) <| la_nil) n o ho
    simpa [CertificateState.XListed, hp] using h
  · rename_i hp hc
    cases ho
    simp [CertificateState.XListed, hp]

-- @@ CertificateExtension
theorem xlist_certificateExtension (v : Int) (x : CertificateExtension) :
    LsC v .certificateExtension X.certificateExtension x (CertificateExtension.XListed v x) := by
  intro n o ho
  simp only [X.certificateExtension] at ho
  split at ho
  · cases ho
  · rename_i p hp hc
    have h := ls_struct (v := v) (p := .certificateExtension) (s := p) (toP := CommonCertificateExtension.toP)
      (ofP := CommonCertificateExtension.ofP) (la_elem le_plain <| la_calm (le_calm rfl) <| la_nil) n o ho
    simpa [CertificateExtension.XListed, hp, CommonCertificateExtension.toP] using h
  · rename_i c hp hc
    have h := ls_struct (v := v) (p := .certificateExtension) (s := c) (toP := CustomCertificateExtension.toP)
      (ofP := CustomCertificateExtension.ofP) (la_calm (le_calm rfl) <| la_calm (le_calm rfl) <| la_nil) n o ho
    simpa [CertificateExtension.XListed, hp] using h
  · rename_i hp hc
    cases ho
    simp [CertificateExtension.XListed, hp]

-- @@ License
theorem xlist_license (v : Int) (x : License) : LsC v .license X.license x (License.XListed v x) := by
  have H : LsC v .license (XCodec.struct X.licenseFields License.toP License.ofP) x (License.XListed v x) := by
    refine (ls_struct (
    @FIELDS)).congr ?_
    simp [License.XListed, License.toP]
  intro n o ho
  simp only [X.license] at ho
  split at ho
  · cases ho
  · split at ho
    · cases ho
    · exact H n o ho

-- @@ LicenseChoice
theorem xlist_licenseExpressionDetail (v : Int) (x : LicenseExpressionDetail) :
    LsC v .licenseExpressionDetailedTypeDetails X.licenseExpressionDetail x (LicenseExpressionDetail.XListed v x) := by
  refine (ls_struct (F := X.licenseExpressionDetailFields) (la_attr_any rfl <|
    la_elem (lc_ptr rfl rfl (fun y _ => xlist_attachedText v y)) <| la_calm (le_calm rfl) <| la_nil)).congr ?_
  simp [LicenseExpressionDetail.XListed]

theorem lists_detailed {v : Int} {s : String} : XPlace.ListsAttr v .licenseExpressionDetailed "acknowledgement" s ↔
    XPlace.ListsAttr v .licenseExpression "acknowledgement" s := Iff.rfl

theorem xlist_licenseChoice (v : Int) {c : LicenseChoice} {k : List Xml} (h : X.licenseChoiceEnc c = some k) :
    (∀ y ∈ k, KidOk v .licenseChoice y) ↔ LicenseChoice.XListed v c := by
  simp only [X.licenseChoiceEnc] at h
  split at h
  · rename_i l hl
    split at h
    · cases h
    · rename_i he
      obtain ⟨o, ho, rfl⟩ := Option.map_eq_some_iff.mp h
      have := one (p := .licenseChoice) (m := "license") rfl rfl rfl (xlist_license v l) ho
      simpa [LicenseChoice.XListed, hl, Option.mem_toList] using this
  · rename_i hl
    split at h
    · rename_i he
      split at h
      · rename_i hd
        obtain ⟨o, ho, rfl⟩ := Option.map_eq_some_iff.mp h
        have hd : c.expressionDetails = .nil := by cases hq : c.expressionDetails <;> simp_all [PSlice.isNil]
        have := ls_struct (v := v) (p := .licenseExpression) (F := X.licenseExpressionFields)
          (la_chardata <| la_attr_oe <| la_attr_any rfl <| la_nil) _ o ho
        simp only [XCodec.struct] at ho
        obtain ⟨ks, hk, rfl⟩ := Option.map_eq_some_iff.1 ho
        simp only [Option.toList_some, List.mem_singleton, forall_eq, Option.mem_def, Option.some.injEq, forall_eq', id] at this ⊢
        rw [kid_at (m := "expression") (q := .licenseExpression) rfl rfl rfl, this]
        cases hak : c.acknowledgement <;> simp [LicenseChoice.XListed, hl, he, hd, hak, PSlice.elems]
      · rename_i hd
        obtain ⟨o, ho, rfl⟩ := Option.map_eq_some_iff.mp h
        have := ls_struct (v := v) (p := .licenseExpressionDetailed) (F := X.licenseExpressionDetailedFields)
          (la_attr_any rfl <| la_attr_oe <| la_attr_any rfl <|
            la_elem (lc_list rfl rfl (fun _ => rfl) (fun y _ => xlist_licenseExpressionDetail v y)) <| la_nil) _ o ho
        simp only [XCodec.struct] at ho
        obtain ⟨ks, hk, rfl⟩ := Option.map_eq_some_iff.1 ho
        simp only [Option.toList_some, List.mem_singleton, forall_eq, Option.mem_def, Option.some.injEq, forall_eq', id,
          lists_detailed] at this ⊢
        rw [kid_at (m := "expression-detailed") (q := .licenseExpressionDetailed) rfl rfl rfl, this]
        cases hak : c.acknowledgement <;> simp [LicenseChoice.XListed, hl, he, hak]
    · rename_i he
      cases h
      simp [LicenseChoice.XListed, hl, not_not.mp he]

theorem xlist_licenses (v : Int) (l : List LicenseChoice) :
    LsC v .licenseChoice X.licenses l (∀ y ∈ l, LicenseChoice.XListed v y) := by
  intro n o ho
  cases hl : l with
  | nil => subst hl; cases ho; simp
  | cons c cs =>
    have ho' : (X.encEach X.licenseChoiceEnc l).map (fun ks => some (Xml.elem n [] ks)) = some o := by
      rw [hl] at ho ⊢; exact ho
    rw [← hl]
    obtain ⟨ks, hks, rfl⟩ := Option.map_eq_some_iff.mp ho'
    simp only [Option.mem_def, Option.some.injEq, forall_eq']
    rw [xlisted_iff]
    simp only [List.not_mem_nil, false_implies, implies_true, true_and]
    exact encEach_all hks fun a _ k hk => xlist_licenseChoice v hk

-- @@ Evidence
theorem xlist_evidence (v : Int) (x : Evidence) : LsC v .componentEvidence X.evidence x (Evidence.XListed v x) := by
  intro n o ho
  simp only [X.evidence] at ho
  have nn : ∀ {α : Type} (p : PSlice α), p.isNil = true ↔ p = .nil := by
    intro α p; cases p <;> simp [PSlice.isNil]
  split at ho
  · rename_i h
    simp only [Option.isNone_iff_eq_none, nn] at h
    cases ho
    simp [Evidence.XListed, h, PSlice.elems]
  · have H := ls_struct (v := v) (p := .componentEvidence) (F := X.evidenceFields) (toP := _root_.id) (ofP := _root_.id)
      (la_elem (lc_list rfl rfl (fun _ => rfl) (fun y _ => xlist_evidenceIdentity v y)) <|
      la_calm (le_calm rfl) <| la_calm (le_calm rfl) <| la_elem (lc_slice rfl rfl (xlist_licenses v _)) <|
      la_calm (le_calm rfl) <| la_nil) n o ho
    rw [H]
    simp only [id, and_true, Evidence.XListed]
    refine and_congr ?_ Iff.rfl
    simp only [X.evidenceIdentities]
    cases hc : x.identity with
    | none => simp [PSlice.elems]
    | some c =>
      cases hi : c.identities <;> cases hj : c.identity <;> simp [EvidenceIdentityChoice.XListed, hi, hj, PSlice.isNil, PSlice.elems]

-- @@ MLDatasetChoice
theorem xlist_mlDatasetChoice (v : Int) (x : MLDatasetChoice) :
    LsC v .componentData X.mlDatasetChoice x (MLDatasetChoice.XListed v x) := by
  intro n o ho
  simp only [X.mlDatasetChoice] at ho
  split at ho
  · rename_i h
    have H := ls_struct (v := v) (p := .componentData) (s := x.ref) (toP := fun s => (s, ())) (ofP := fun p => p.1)
      (la_calm (le_calm rfl) <| la_nil) n o ho
    simpa [MLDatasetChoice.XListed, h] using H
  · rename_i h
    have h : x.ref = "" := not_not.mp h
    split at ho
    · rename_i d hd
      simpa [MLDatasetChoice.XListed, h, hd] using xlist_componentData v d n o ho
    · rename_i hd
      cases ho
      simp [MLDatasetChoice.XListed, h, hd]

-- @@ Component
omit [XFloatIO] in
theorem xlistedComponentList_iff {v : Int} : ∀ {xs : List Component}, XListedComponentList v xs ↔ ∀ y ∈ xs, y.XListed v
  | [] => by simp [XListedComponentList]
  | x :: xs => by simp [XListedComponentList, xlistedComponentList_iff]

omit [XFloatIO] in
theorem xlistedComponents_iff {v : Int} {p : PSlice Component} : XListedComponents v p ↔ ∀ y ∈ p.elems, y.XListed v := by
  cases p <;> simp [XListedComponents, PSlice.elems, xlistedComponentList_iff]

omit [XFloatIO] in
theorem xlistedPedigreeOpt_iff {v : Int} {p : Option (Pedigree Component)} :
    XListedPedigreeOpt v p ↔ ∀ y ∈ p, XListedPedigree v y := by
  cases p <;> simp [XListedPedigreeOpt]

theorem xlist_pedigreeWith (v : Int) (x : Pedigree Component)
    (h_ancestors : ∀ c ∈ x.ancestors.elems, LsC v .component X.component c (c.XListed v))
    (h_descendants : ∀ c ∈ x.descendants.elems, LsC v .component X.component c (c.XListed v))
    (h_variants : ∀ c ∈ x.variants.elems, LsC v .component X.component c (c.XListed v)) :
    LsC v .pedigree (X.pedigree X.component) x (XListedPedigree v x) := by
  refine (ls_struct (
    @PED)).congr ?_
  cases x
  simp [XListedPedigree, Pedigree.toP, xlistedComponents_iff]

theorem xlist_componentWith (v : Int) (x : Component)
    (h_components : ∀ c ∈ x.components.elems, LsC v .component X.component c (c.XListed v))
    (h_pedigree : ∀ p ∈ x.pedigree, LsC v .pedigree (X.pedigree X.component) p (XListedPedigree v p)) :
    LsC v .component (X.componentWith X.component) x (x.XListed v) := by
  refine (ls_struct (
    @FIELDS)).congr ?_
  cases x
  simp [Component.XListed, Component.toP, xlistedComponents_iff, xlistedPedigreeOpt_iff]

theorem xlist_component (v : Int) (x : Component) : LsC v .component X.component x (x.XListed v) := by
  suffices H : ∀ k (x : Component), x.height ≤ k → LsC v .component X.component x (x.XListed v) from
    H x.height x (Nat.le_refl _)
  intro k
  induction k with
  | zero => intro x h; rw [Component.height_eq] at h; omega
  | succ k ih =>
    intro x h n o ho
    rw [xcomponent_enc] at ho
    revert n o
    rw [Component.height_eq] at h
    have hm : max (heightComponents x.components) (heightPedigreeOpt x.pedigree) ≤ k := by omega
    rw [Nat.max_le] at hm
    have hl : ∀ p : PSlice Component, heightComponents p ≤ k →
        ∀ c ∈ p.elems, LsC v .component X.component c (c.XListed v) := by
      intro p hp
      rw [heightComponents_le] at hp
      exact fun c hc => ih c (hp c hc)
    refine xlist_componentWith v x (hl _ hm.1) ?_
    intro p hp
    have hp : x.pedigree = some p := hp
    have hm := hm.2
    simp only [hp, heightPedigreeOpt, heightPedigree_eq, Nat.max_le] at hm
    exact xlist_pedigreeWith v p (hl _ hm.1) (hl _ hm.2.1) (hl _ hm.2.2)

-- @@ DataClassification
theorem urls_free {v : Int} {n : String} {us : PSlice String} (h : XPlace.freeElem .dataflow n = true) :
    ∀ y ∈ X.urlsElem n us, KidOk v .dataflow y := by
  intro y hy
  refine kid_free (m := n) ?_ h
  unfold X.urlsElem at hy
  split at hy
  · cases hy
  · simp only [List.mem_singleton] at hy; subst hy; simp [Xml.isElem]

theorem xlist_dataClassification (v : Int) (x : DataClassification) :
    LsC v .dataflow X.dataClassification x (DataClassification.XListed v x) := by
  intro n o ho
  simp only [X.dataClassification] at ho
  split at ho
  · cases ho
  · rename_i gs hg
    cases ho
    simp only [Option.mem_def, Option.some.injEq, forall_eq']
    rw [xlisted_iff]
    have ha : ∀ a ∈ X.attrUnlessEmpty "name" x.name ++ X.attrUnlessEmpty "description" x.description,
        XPlace.ListsAttr v .dataflow a.1 a.2 := by
      intro a _
      exact fun gs hg => by cases hg
    have hgs := (le_calm (v := v) (p := .dataflow) (f := XField.ptr "governance" X.dataGovernance) rfl gs hg).2 trivial
    have hs := urls_free (v := v) (n := "source") (us := x.source) rfl
    have hd := urls_free (v := v) (n := "destination") (us := x.destination) rfl
    simp only [List.mem_append, or_imp, forall_and]
    have hc : (∀ y ∈ (if x.classification ≠ "" ∨ x.flow ≠ "" then
        [.elem "classification" (X.attrUnlessEmpty "flow" x.flow) (textKids (sanitize x.classification))] else []),
        KidOk v .dataflow y) ↔ DataClassification.XListed v x := by
      split
      · simp only [List.mem_singleton, forall_eq]
        rw [kid_at (m := "classification") (q := .dataClassification) rfl rfl rfl, xlisted_iff]
        have ht : ∀ y ∈ textKids (sanitize x.classification), KidOk v .dataClassification y := by
          intro y hy
          unfold textKids at hy
          split at hy
          · cases hy
          · simp only [List.mem_singleton] at hy; subst hy; trivial
        simp only [X.attrUnlessEmpty, DataClassification.XListed]
        split
        · rename_i hf
          simp only [List.mem_singleton, forall_eq, hf, ne_eq, not_false_eq_true, true_implies, listsAttr_sanitize]
          exact ⟨fun h => h.1, fun h => ⟨h, ht⟩⟩
        · rename_i hf
          exact ⟨fun _ h => absurd h hf, fun _ => ⟨fun a h => (nomatch h), ht⟩⟩
      · rename_i h
        simp only [not_or, not_not] at h
        simp [DataClassification.XListed, h.2]
    constructor
    · intro h
      exact hc.1 h.2.1.1.1
    · intro h
      exact ⟨by simpa only [List.mem_append, or_imp, forall_and] using ha, ⟨⟨hc.2 h, hgs⟩, hs⟩, hd⟩

-- @@ Service
omit [XFloatIO] in
theorem xlistedServiceList_iff {v : Int} : ∀ {xs : List Service}, XListedServiceList v xs ↔ ∀ y ∈ xs, y.XListed v
  | [] => by simp [XListedServiceList]
  | x :: xs => by simp [XListedServiceList, xlistedServiceList_iff]

omit [XFloatIO] in
theorem xlistedServices_iff {v : Int} {p : PSlice Service} : XListedServices v p ↔ ∀ y ∈ p.elems, y.XListed v := by
  cases p <;> simp [XListedServices, PSlice.elems, xlistedServiceList_iff]

theorem xlist_serviceWith (v : Int) (x : Service)
    (h_services : ∀ c ∈ x.services.elems, LsC v .service X.service c (c.XListed v)) :
    LsC v .service (X.serviceWith X.service) x (x.XListed v) := by
  refine (ls_struct (
    @FIELDS)).congr ?_
  cases x
  simp [Service.XListed, Service.toP, xlistedServices_iff]

theorem xlist_service (v : Int) (x : Service) : LsC v .service X.service x (x.XListed v) := by
  suffices H : ∀ k (x : Service), x.height ≤ k → LsC v .service X.service x (x.XListed v) from
    H x.height x (Nat.le_refl _)
  intro k
  induction k with
  | zero => intro x h; rw [Service.height_eq] at h; omega
  | succ k ih =>
    intro x h n o ho
    rw [xservice_enc] at ho
    revert n o
    rw [Service.height_eq] at h
    have hm : heightServices x.services ≤ k := by omega
    rw [heightServices_le] at hm
    exact xlist_serviceWith v x fun c hc => ih c (hm c hc)

-- @@ Definitions
theorem ls_enclosed {v : Int} {p q : XPlace} {n : String} {α : Type} {f : α → Option (List Xml)} {a : PSlice α} {S : α → Prop}
    {ks : List Xml} (hn : p.enumElems.lookup n = none) (hq : p.child n = some q)
    (h : ∀ y ∈ a.elems, ∀ k, f y = some k → ((∀ x ∈ k, KidOk v q x) ↔ S y)) (hk : X.enclosed n f a = some ks) :
    (∀ y ∈ ks, KidOk v p y) ↔ ∀ y ∈ a.elems, S y := by
  cases a with
  | nil => cases hk; simp [PSlice.elems]
  | nilSlice =>
    cases hk
    simp only [List.mem_singleton, forall_eq]
    rw [kid_enclosed hn hq]
    simp [PSlice.elems]
  | list xs =>
    obtain ⟨l, hl, rfl⟩ := Option.map_eq_some_iff.1 hk
    simp only [List.mem_singleton, forall_eq]
    rw [kid_enclosed hn hq]
    exact encEach_all hl h

theorem xlist_patentChoice (v : Int) {c : PatentChoice} {k : List Xml} (h : X.patentChoiceEnc c = some k) :
    (∀ y ∈ k, KidOk v .definitionsTypePatents y) ↔ PatentChoice.XListed v c := by
  simp only [X.patentChoiceEnc] at h
  split at h
  · rename_i l hl
    obtain ⟨o, ho, rfl⟩ := Option.map_eq_some_iff.mp h
    have := one (p := .definitionsTypePatents) (m := "patent") rfl rfl rfl (xlist_patent v l) ho
    simpa [PatentChoice.XListed, hl, Option.mem_toList] using this
  · rename_i l hl hf
    obtain ⟨o, ho, rfl⟩ := Option.map_eq_some_iff.mp h
    have := one (p := .definitionsTypePatents) (m := "patentFamily") rfl rfl rfl (xlist_patentFamily v l) ho
    simpa [PatentChoice.XListed, hl, hf, Option.mem_toList] using this
  · rename_i hl hf
    cases h
    simp [PatentChoice.XListed, hl, hf]

theorem xlist_definitions (v : Int) (x : Definitions) : LsC v .definitions X.definitions x (Definitions.XListed v x) := by
  intro n o ho
  simp only [X.definitions] at ho
  split at ho
  · rename_i ss ps hs hp
    cases ho
    simp only [Option.mem_def, Option.some.injEq, forall_eq']
    rw [xlisted_iff]
    simp only [List.not_mem_nil, false_implies, implies_true, true_and, List.mem_append, or_imp, forall_and, Definitions.XListed]
    refine and_congr (ls_enclosed (q := .standards) rfl rfl (fun y _ k hk => ?_) hs)
      (ls_enclosed (q := .definitionsTypePatents) rfl rfl (fun y _ k hk => xlist_patentChoice v hk) hp)
    obtain ⟨o, ho, rfl⟩ := Option.map_eq_some_iff.mp hk
    have := one (p := .standards) (m := "standard") rfl rfl rfl (xlist_standardDefinition v y) ho
    simpa [Option.mem_toList] using this
  · cases ho

-- @@ ToolsChoice
theorem xlist_toolsChoice (v : Int) (x : ToolsChoice) : LsC v .tools X.toolsChoice x (ToolsChoice.XListed v x) := by
  have H : ∀ n o p, (XCodec.struct X.toolsChoiceFields id id).enc n p = some o → ((∀ y ∈ o, XListed v .tools y) ↔
      (∀ y ∈ p.1.elems, Tool.XListed v y) ∧ (∀ y ∈ p.2.1.elems, Component.XListed v y) ∧
        ∀ y ∈ p.2.2.1.elems, Service.XListed v y) := by
    intro n o p ho
    have := ls_struct (v := v) (p := .tools) (F := X.toolsChoiceFields) (toP := _root_.id) (ofP := _root_.id)
      (la_elem (lc_list rfl rfl (fun _ => rfl) (fun y _ => xlist_tool v y)) <|
      la_elem (lc_nlist (q := .components) rfl rfl rfl (fun _ => rfl) (fun y _ => xlist_component v y)) <|
      la_elem (lc_nlist (q := .services) rfl rfl rfl (fun _ => rfl) (fun y _ => xlist_service v y)) <| la_nil) n o ho
    rw [this]
    simp only [id, and_true]
  have nn : ∀ {α : Type} (p : PSlice α), p.isNil = true ↔ p = .nil := by
    intro α p; cases p <;> simp [PSlice.isNil]
  intro n o ho
  simp only [X.toolsChoice] at ho
  simp only [ToolsChoice.XListed]
  split at ho
  · cases ho
  · rename_i h1
    simp only [nn] at h1
    split at ho
    · rename_i ht
      simp only [nn] at ht
      have hc : x.components = .nil := Classical.byContradiction fun h => h1 ⟨ht, .inl h⟩
      have hs : x.services = .nil := Classical.byContradiction fun h => h1 ⟨ht, .inr h⟩
      rw [H n o _ ho, hc, hs]
    · rename_i ht
      simp only [nn] at ht
      have ht : x.tools = .nil := Classical.byContradiction ht
      split at ho
      · rw [H n o _ ho, ht]
      · rename_i hcs
        simp only [nn, not_or, not_not] at hcs
        cases ho
        simp [ht, hcs, PSlice.elems]

