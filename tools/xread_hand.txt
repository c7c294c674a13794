HAND['LicenseChoice'] = '''theorem decEach_none {α : Type} {g : Xml → Option (List α)} : ∀ {xs : List Xml},
    X.decEach g xs = none → ∃ x ∈ xs, g x = none
  | [], h => by cases h
  | x :: xs, h => by
    simp only [X.decEach] at h
    split at h
    · rename_i e; exact ⟨x, by simp, e⟩
    · obtain ⟨y, hy, e⟩ := decEach_none (Option.map_eq_none_iff.mp h)
      exact ⟨y, by simp [hy], e⟩

instance : XFieldsTotal X.licenseExpressionDetailFields := by unfold X.licenseExpressionDetailFields; infer_instance
instance : XTotal X.licenseExpressionDetail := xstruct_total X.licenseExpressionDetailFields _ _
instance : XFieldsTotal X.licenseExpressionFields := by unfold X.licenseExpressionFields; infer_instance
instance : XFieldsTotal X.licenseExpressionDetailedFields := by
  unfold X.licenseExpressionDetailedFields; infer_instance

theorem ne_none_of_isSome {α : Type} {o : Option α} (h : o.isSome = true) : o ≠ none := by
  rintro rfl; cases h

/-- The names of the elements that a place has. -/
theorem kid_name {v : Int} {p : XPlace} {n : String} {as : List (String × String)} {ks : List Xml}
    (h : XValid v p (.elem n as ks)) {m : String} {bs : List (String × String)} {ls : List Xml}
    (hx : Xml.elem m bs ls ∈ ks) : m ∈ p.content.els.map (·.1) := by
  obtain ⟨q, hq, _⟩ := h.kid hx (m := m) (by simp [Xml.isElem])
  exact List.mem_map.mpr ⟨_, hq, rfl⟩

/-- A loop over elements that are all read, at a place without numbers and booleans. -/
theorem xreads_each {α : Type} {g : Xml → Option (List α)} {n : Nat} {p : XPlace} {c : XCodec (List α)}
    (side : p.calm = true) (hc : ∀ x a, c.dec x a = X.decEach g x.kids)
    (ht : ∀ s, g (.text s) ≠ none)
    (h : ∀ m ∈ p.content.els.map (·.1), ∀ bs ls, g (.elem m bs ls) ≠ none) : XReads n c p := by
  intro v x a hx hv
  rw [hc]
  constructor
  · intro he
    obtain ⟨k, hk, e⟩ := decEach_none he
    cases x with
    | text s => cases hv
    | elem name as ks =>
      cases k with
      | text s => exact absurd e (ht s)
      | elem m bs ls => exact absurd e (h m (kid_name hv hk) bs ls)
  · intro h; rw [calm_not_refused h] at side; cases side

theorem xread_licenses (n : Nat) : XReads n X.licenses .licenseChoice := by
  refine xreads_each (g := X.licenseChoiceDec) rfl (fun _ _ => rfl) (fun s => by simp [X.licenseChoiceDec]) ?_
  intro m hm bs ls
  have hm : m ∈ ["license", "license", "expression", "license", "expression", "expression-detailed"] := hm
  simp only [X.licenseChoiceDec]
  split
  · simpa using ne_none_of_isSome (xdec_total X.licenseExpressionFields _ _)
  · split
    · simpa using ne_none_of_isSome (xdec_total X.licenseExpressionDetailedFields _ _)
    · split
      · simpa using ne_none_of_isSome (XTotal.total (c := X.license) _ _)
      · simp_all
'''
HAND['EnvironmentVariableChoice'] = '''theorem xread_environmentVariables (n : Nat) : XReads n X.environmentVariables .inputTypeEnvironmentVars := by
  refine xreads_each (g := X.environmentVariableDec) rfl (fun _ _ => rfl) (fun s => by simp [X.environmentVariableDec]) ?_
  intro m hm bs ls
  have hm : m ∈ ["environmentVar", "value"] := hm
  simp only [X.environmentVariableDec]
  split
  · simp [XCodec.simple, XText.string]
  · split
    · simpa using ne_none_of_isSome (XTotal.total (c := X.property) _ _)
    · simp_all
'''
HAND['Evidence'] = '''instance : XFieldsBlind X.evidenceRaw := by unfold X.evidenceRaw; infer_instance

theorem fread_occurrences (n : Nat) : FReads n X.evidenceRaw .occurrences := fun v x b hx hv =>
  freads (n := n) X.evidenceRaw (ra_elem (er_list (q := .occurrence) (xread_evidenceOccurrence n) rfl) <|
    ra_elem (er_none rfl) ra_nil) rfl v x b (by omega) hv

theorem fread_copyrights (n : Nat) : FReads n X.evidenceRaw .copyrights := fun v x b hx hv =>
  freads (n := n) X.evidenceRaw (ra_elem (er_none rfl) <|
    ra_elem (er_list (q := .text) (xreads_calm rfl) rfl) ra_nil) rfl v x b (by omega) hv

theorem evidenceStep_blind (x : Xml) (a b : List EvidenceIdentity × Evidence) :
    (X.evidenceStep x a).isSome = (X.evidenceStep x b).isSome := by
  cases x with
  | text s => rfl
  | elem name as ks =>
    simp only [X.evidenceStep]
    repeat' split
    all_goals simp only [Option.isSome_map, Option.isSome_none]

/-- A loop over elements each of which is refused as the places say. -/
theorem reads_loop {σ : Type} {step : Xml → σ → Option σ} {n : Nat} {p : XPlace} (side : p.scalarAttrs = [])
    (sideE : p.scalarElems = []) (hb : ∀ x a b, (step x a).isSome = (step x b).isSome)
    (ht : ∀ s a, step (.text s) a ≠ none) {v : Int} {x : Xml} (hx : x.depth < n) (hv : XValid v p x) (a : σ)
    (h : ∀ m q, (m, q) ∈ p.content.els → ∀ bs ls, (Xml.elem m bs ls).depth < n → XValid v q (.elem m bs ls) →
      (step (.elem m bs ls) a = none ↔ XRefused q (.elem m bs ls))) :
    XField.decAll step x.kids a = none ↔ XRefused p x := by
  rw [decAll_none hb]
  cases x with
  | text s => cases hv
  | elem name as ks =>
    rw [refused_iff, side]
    simp only [List.not_mem_nil, false_and, exists_false, and_false, false_or, Xml.kids]
    constructor
    · rintro ⟨k, hk, e⟩
      cases k with
      | text s => exact absurd e (ht s a)
      | elem m bs ls =>
        have hm : (Xml.elem m bs ls).isElem m = true := by simp [Xml.isElem]
        obtain ⟨q, hq, hv'⟩ := hv.kid hk hm
        have hd := depth_kid (n := name) (as := as) hk
        exact ⟨_, hk, m, hm, .inr ⟨q, hq, (h m q hq bs ls (by omega) hv').1 e⟩⟩
    · rintro ⟨k, hk, m, hm, hr⟩
      obtain ⟨q, hq, hv'⟩ := hv.kid hk hm
      rw [refusedAt_iff (child_of_mem hq), sideE] at hr
      simp only [List.not_mem_nil, false_and, exists_false, false_or] at hr
      cases k with
      | text s => cases hm
      | elem m' bs ls =>
        simp only [Xml.isElem, decide_eq_true_eq] at hm
        subst hm
        have hd := depth_kid (n := name) (as := as) hk
        exact ⟨_, hk, (h m' q hq bs ls (by omega) hv').2 hr⟩

theorem xread_evidence (n : Nat) : XReads n X.evidence .componentEvidence := by
  intro v x a hx hv
  simp only [X.evidence, Option.map_eq_none_iff]
  refine reads_loop rfl rfl evidenceStep_blind (fun s a => by simp [X.evidenceStep]) hx hv _ ?_
  intro m q hq bs ls hd hv
  have hq : (m, q) ∈ [("identity", XPlace.identity), ("identity", .identity), ("occurrences", .occurrences),
    ("callstack", .callstack), ("licenses", .licenseChoice), ("copyright", .copyrights)] := hq
  simp only [List.mem_cons, Prod.mk.injEq, List.not_mem_nil, or_false] at hq
  rcases hq with ⟨rfl, rfl⟩ | ⟨rfl, rfl⟩ | ⟨rfl, rfl⟩ | ⟨rfl, rfl⟩ | ⟨rfl, rfl⟩ | ⟨rfl, rfl⟩ <;>
    simp only [X.evidenceStep, if_true, String.reduceEq, if_false, Option.map_eq_none_iff]
  · exact xread_evidenceIdentity n v _ _ hd hv
  · exact xread_evidenceIdentity n v _ _ hd hv
  · exact fread_occurrences n v _ _ hd hv
  · exact xread_callstack n v _ _ hd hv
  · exact xread_licenses n v _ _ hd hv
  · exact fread_copyrights n v _ _ hd hv
'''
HAND['ToolsChoice'] = '''instance : XFieldsBlind X.toolsChoiceRaw := by unfold X.toolsChoiceRaw; infer_instance

theorem fread_components (n : Nat) : FReads n X.toolsChoiceRaw .components := fun v x b hx hv =>
  freads (n := n) X.toolsChoiceRaw (ra_elem (er_list (q := .component) (xread_component n) rfl) <|
    ra_elem (er_none rfl) ra_nil) rfl v x b (by omega) hv

theorem fread_services (n : Nat) : FReads n X.toolsChoiceRaw .services := fun v x b hx hv =>
  freads (n := n) X.toolsChoiceRaw (ra_elem (er_none rfl) <|
    ra_elem (er_list (q := .service) (xread_service n) rfl) ra_nil) rfl v x b (by omega) hv

theorem toolsChoiceStep_blind (x : Xml) (a b : List Tool × List Component × List Service) :
    (X.toolsChoiceStep x a).isSome = (X.toolsChoiceStep x b).isSome := by
  cases x with
  | text s => rfl
  | elem name as ks =>
    simp only [X.toolsChoiceStep]
    repeat' split
    all_goals simp only [Option.isSome_map, Option.isSome_none]

/-- The schema does not let tools occur beside components and services. -/
theorem tools_not_mixed {v : Int} {ok : XPlace → Xml → Prop} {l : List Xml}
    (h : XPlace.tools.content.Matches v ok l) :
    (∀ x ∈ l, x.isElem "tool" = true) ∨ ∀ x ∈ l, x.isElem "components" = true ∨ x.isElem "services" = true := by
  have names : ∀ {c : Content} {l : List Xml}, c.Matches v ok l → ∀ x ∈ l, ∃ e ∈ c.els, x.isElem e.1 = true :=
    fun h x hx => let ⟨e, he, h', _⟩ := h.els x hx; ⟨e, he, h'⟩
  have old : ∀ l, (Content.many (.el "tool" .tool)).Matches v ok l → ∀ x ∈ l, x.isElem "tool" = true := by
    intro l h x hx
    obtain ⟨e, he, hm⟩ := names h x hx
    have he : e ∈ [("tool", XPlace.tool)] := he
    rw [List.mem_singleton] at he; subst he; exact hm
  have h : (Content.switch SpecVersion1_5 (.many (.el "tool" .tool)) (.choice (.many (.el "tool" .tool))
    (.opt (.seqs [.opt (.el "components" .components), .opt (.el "services" .services)])))).Matches v ok l := h
  cases h with
  | old _ h => exact .inl (old l h)
  | new _ h =>
    cases h with
    | left h => exact .inl (old l h)
    | right h =>
      right
      intro x hx
      obtain ⟨e, he, hm⟩ := names h x hx
      have he : e ∈ [("components", XPlace.components), ("services", .services)] := he
      simp only [List.mem_cons, List.not_mem_nil, or_false] at he
      rcases he with rfl | rfl
      · exact .inl hm
      · exact .inr hm

/-- Where there are only tools, or none, the lists are not mixed. -/
theorem toolsChoice_apart : ∀ {ks : List Xml} {st st' : List Tool × List Component × List Service},
    ((∀ x ∈ Xml.elements ks, x.isElem "tool" = true) ∧ st.2.1 = [] ∧ st.2.2 = [] ∨
      (∀ x ∈ Xml.elements ks, x.isElem "components" = true ∨ x.isElem "services" = true) ∧ st.1 = []) →
    XField.decAll X.toolsChoiceStep ks st = some st' → st'.1 = [] ∨ st'.2.1 = [] ∧ st'.2.2 = []
  | [], st, st', h, e => by
    cases e
    rcases h with ⟨_, h⟩ | ⟨_, h⟩
    · exact .inr h
    · exact .inl h
  | .text s :: ks, st, st', h, e => by
    have e : XField.decAll X.toolsChoiceStep ks st = some st' := e
    exact toolsChoice_apart (by simpa [Xml.elements] using h) e
  | .elem m bs ls :: ks, st, st', h, e => by
    simp only [XField.decAll] at e
    split at e
    · cases e
    · rename_i st₁ h₁
      refine toolsChoice_apart ?_ e
      have he : Xml.elements (.elem m bs ls :: ks) = .elem m bs ls :: Xml.elements ks := rfl
      rw [he] at h
      simp only [List.mem_cons, forall_eq_or_imp, Xml.isElem, decide_eq_true_eq] at h
      rcases h with ⟨⟨rfl, h⟩, h'⟩ | ⟨⟨rfl | rfl, h⟩, h'⟩
      · left
        simp only [X.toolsChoiceStep, if_true, Option.map_eq_some_iff] at h₁
        obtain ⟨t, _, rfl⟩ := h₁
        exact ⟨h, h'⟩
      · right
        simp only [X.toolsChoiceStep, if_true, String.reduceEq, if_false, Option.map_eq_some_iff] at h₁
        obtain ⟨t, _, e⟩ := h₁
        split at e <;> (subst e; exact ⟨h, h'⟩)
      · right
        simp only [X.toolsChoiceStep, if_true, String.reduceEq, if_false, Option.map_eq_some_iff] at h₁
        obtain ⟨t, _, e⟩ := h₁
        split at e <;> (subst e; exact ⟨h, h'⟩)

theorem xread_toolsChoice (n : Nat) : XReads n X.toolsChoice .tools := by
  intro v x a hx hv
  have key : XField.decAll X.toolsChoiceStep x.kids ([], [], []) = none ↔ XRefused .tools x := by
    refine reads_loop rfl rfl toolsChoiceStep_blind (fun s a => by simp [X.toolsChoiceStep]) hx hv _ ?_
    intro m q hq bs ls hd hv
    have hq : (m, q) ∈ [("tool", XPlace.tool), ("tool", .tool), ("components", .components), ("services", .services)] := hq
    simp only [List.mem_cons, Prod.mk.injEq, List.not_mem_nil, or_false] at hq
    rcases hq with ⟨rfl, rfl⟩ | ⟨rfl, rfl⟩ | ⟨rfl, rfl⟩ | ⟨rfl, rfl⟩ <;>
      simp only [X.toolsChoiceStep, if_true, String.reduceEq, if_false, Option.map_eq_none_iff]
    · exact xreads_calm (n := n) (c := X.tool) rfl v _ _ hd hv
    · exact xreads_calm (n := n) (c := X.tool) rfl v _ _ hd hv
    · exact fread_components n v _ _ hd hv
    · exact fread_services n v _ _ hd hv
  rw [← key]
  simp only [X.toolsChoice]
  split
  · rename_i e; simp [e]
  · rename_i ts cs ss e
    have hap : ts = [] ∨ cs = [] ∧ ss = [] := by
      cases hv with
      | mk _ _ hm =>
        rcases tools_not_mixed hm with h | h
        · exact toolsChoice_apart (.inl ⟨h, rfl, rfl⟩) e
        · exact toolsChoice_apart (.inr ⟨h, rfl⟩) e
    rw [e, if_neg (by rcases hap with h | h <;> simp [h])]
    split <;> simp
'''
HAND['Definitions'] = '''theorem definitions_list {α : Type} {g : Xml → Option (List α)} {p : XPlace} {v : Int} {m : String}
    {bs : List (String × String)} {ls : List Xml} (hv : XValid v p (.elem m bs ls)) (ht : ∀ s, g (.text s) ≠ none)
    (h : ∀ m ∈ p.content.els.map (·.1), ∀ bs ls, g (.elem m bs ls) ≠ none) : X.decEach g ls ≠ none := by
  intro he
  obtain ⟨k, hk, e⟩ := decEach_none he
  cases k with
  | text s => exact ht s e
  | elem m bs ls => exact h m (kid_name hv hk) bs ls e

theorem xread_definitions (n : Nat) : XReads n X.definitions .definitions := by
  intro v x a hx hv
  refine reads_loop rfl rfl (fun x a b => ?_) (fun s a => by simp [X.definitionsStep]) hx hv _ ?_
  · cases x with
    | text s => rfl
    | elem name as ks =>
      simp only [X.definitionsStep]
      repeat' split
      all_goals simp only [Option.isSome_map, Option.isSome_some]
  · intro m q hq bs ls hd hv
    have hq : (m, q) ∈ [("standards", XPlace.standards), ("patents", .definitionsTypePatents)] := hq
    have hc : q.calm = true := by
      simp only [List.mem_cons, Prod.mk.injEq, List.not_mem_nil, or_false] at hq
      rcases hq with ⟨_, rfl⟩ | ⟨_, rfl⟩ <;> rfl
    refine ⟨fun e => ?_, fun h => by rw [calm_not_refused h] at hc; cases hc⟩
    simp only [List.mem_cons, Prod.mk.injEq, List.not_mem_nil, or_false] at hq
    rcases hq with ⟨rfl, rfl⟩ | ⟨rfl, rfl⟩ <;>
      simp only [X.definitionsStep, if_true, String.reduceEq, if_false, Option.map_eq_none_iff] at e
    · refine absurd e (definitions_list hv (fun s => by simp [X.standardDec]) ?_)
      intro m hm bs ls
      have hm : m ∈ ["standard"] := hm
      rw [List.mem_singleton] at hm; subst hm
      simpa [X.standardDec] using ne_none_of_isSome (XTotal.total (c := X.standardDefinition) _ _)
    · refine absurd e (definitions_list hv (fun s => by simp [X.patentChoiceDec]) ?_)
      intro m hm bs ls
      have hm : m ∈ ["patent", "patentFamily"] := hm
      simp only [List.mem_cons, List.not_mem_nil, or_false] at hm
      rcases hm with rfl | rfl
      · simpa [X.patentChoiceDec] using ne_none_of_isSome (XTotal.total (c := X.patent) _ _)
      · simpa [X.patentChoiceDec] using ne_none_of_isSome (XTotal.total (c := X.patentFamily) _ _)
'''
HAND['DataClassification'] = '''theorem spliced_elements {known : List String} {stop : String} : ∀ {ks : List Xml},
    (∀ m bs ls, Xml.elem m bs ls ∈ ks → m ∈ known) → X.spliced known stop ks = some (Xml.elements ks)
  | [], _ => rfl
  | .text s :: ks, h => by
    have ih := spliced_elements (ks := ks) (stop := stop) fun m bs ls hm => h m bs ls (by simp [hm])
    simp only [X.spliced, X.spliceOne, ih, List.nil_append]
    rfl
  | .elem m bs ls :: ks, h => by
    have ih := spliced_elements (ks := ks) (stop := stop) fun m bs ls hm => h m bs ls (by simp [hm])
    have hm : m ∈ known := h m bs ls (by simp)
    simp only [X.spliced, X.spliceOne, hm, if_true, ih, List.singleton_append]
    rfl

theorem xread_dataClassification_field (n : Nat) {q : XPlace} (hq : q.child "dataflow" = some .dataflow)
    (side : (q.scalarElems.any fun e => e.1 == "dataflow") = false) {oe : Bool} :
    EReads n q (.list "dataflow" oe X.dataClassification) := by
  intro v q' x a hx hm hq' hv
  rw [show (XField.list "dataflow" oe X.dataClassification).name = "dataflow" from rfl] at hq' hm ⊢
  rw [hq] at hq'; cases hq'
  have hr : ¬ RefusedAt q "dataflow" x := by
    rw [refusedAt_iff hq]
    simp only [no_scalar side, false_or]
    intro h; have := calm_not_refused h; cases this
  simp only [XField.list, Option.map_eq_none_iff, hr, iff_false]
  cases x with
  | text s => cases hv
  | elem name as ks =>
    simp only [Xml.isElem, decide_eq_true_eq] at hm
    subst hm
    have known : ∀ m bs ls, Xml.elem m bs ls ∈ ks → m ∈ ["classification", "governance", "source", "destination"] :=
      fun m bs ls h => kid_name hv h
    simp only [X.dataClassification, Xml.name, ne_eq, not_true_eq_false, if_false, Xml.kids, spliced_elements known]
    intro he
    rw [decAll_none (fun y a b => by
      cases y with
      | text s => rfl
      | elem n as ks =>
        simp only [X.dataClassificationStep]
        repeat' split
        all_goals simp only [Option.isSome_map, Option.isSome_some])] at he
    obtain ⟨k, hk, e⟩ := he
    have hk' : k ∈ ks := by simp only [Xml.elements, List.mem_filter] at hk; exact hk.1
    cases k with
    | text s => cases e
    | elem m bs ls =>
      obtain ⟨q, hq, hv'⟩ := hv.kid hk' (m := m) (by simp [Xml.isElem])
      have urls : ∀ stop, q = .issueTypeReferences → X.urls stop ls ≠ none := by
        rintro stop rfl
        have : ∀ m bs ls', Xml.elem m bs ls' ∈ ls → m ∈ ["url"] := fun m bs ls h => kid_name hv' h
        simp [X.urls, spliced_elements this]
      have hq : (m, q) ∈ [("classification", XPlace.dataClassification), ("governance", .dataGovernance),
        ("source", .issueTypeReferences), ("destination", .issueTypeReferences)] := hq
      simp only [List.mem_cons, Prod.mk.injEq, List.not_mem_nil, or_false] at hq
      rcases hq with ⟨rfl, rfl⟩ | ⟨rfl, rfl⟩ | ⟨rfl, rfl⟩ | ⟨rfl, rfl⟩ <;>
        simp only [X.dataClassificationStep, if_true, String.reduceEq, if_false, Option.map_eq_none_iff,
          reduceCtorEq] at e
      · exact ne_none_of_isSome (XTotal.total (c := X.dataGovernance) _ _) e
      · exact urls _ rfl e
      · exact urls _ rfl e
'''
