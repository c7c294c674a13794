-- @@ CertificateState
theorem xfit_certificateState (v : Int) (n : String) (x : CertificateState) :
    CFit v .certificateState X.certificateState n x x.XWritten True := by
  intro o ho
  simp only [X.certificateState] at ho
  split at ho
  · cases ho
  · rename_i p hp hc
    have h := (cf_struct (v := v) (p := .certificateState) (n := n) (s := p) (toP := PredefinedCertificateState.toP)
      (ofP := PredefinedCertificateState.ofP) (af_elem <| af_elem <| af_nil) (rf_none rfl) (.inr rfl)
      (kf_choice
        (kf_plain (bf_plain_el (xfit_string v _ _)) rfl <| kf_plain (so_opt (xfit_string v _ _)) rfl <| kf_nil)
        (kf_none (bf_plain_empty (xfit_string v _ _)) rfl <| kf_missing "name" rfl
          (kf_none (so_empty (xemp_string _) (xfit_string v _ _)) rfl <| kf_nil)))) o ho
    simpa [CertificateState.XWritten, hp, hc] using h
  · rename_i c hp hc
    have h := (cf_struct (v := v) (p := .certificateState) (n := n) (s := c) (toP := CustomCertificateState.toP)
      (ofP := CustomCertificateState.ofP) (af_elem <| af_elem <| af_elem <| af_nil) (rf_none rfl) (.inr rfl)
      (kf_choice
        (kf_none (bf_plain_empty (xfit_string v _ _)) rfl <|
          kf_none (so_empty (xemp_string _) (xfit_string v _ _)) rfl <| kf_missing "state" rfl
            (kf_none (so_empty (xemp_string _) (xfit_string v _ _)) rfl <| kf_nil))
        (kf_plain (bf_plain_el (xfit_string v _ _)) rfl <| kf_plain (so_opt (xfit_string v _ _)) rfl <|
          kf_plain (so_opt (xfit_string v _ _)) rfl <| kf_nil))) o ho
    simpa [CertificateState.XWritten, hp, hc] using h
  · rename_i hp hc
    cases ho
    simp [CertificateState.XWritten, hp, hc]

-- @@ CertificateExtension
theorem xfit_certificateExtension (v : Int) (n : String) (x : CertificateExtension) :
    CFit v .certificateExtension X.certificateExtension n x x.XWritten (x.XFits v) := by
  intro o ho
  simp only [X.certificateExtension] at ho
  split at ho
  · cases ho
  · rename_i p hp hc
    have h := (cf_struct (v := v) (p := .certificateExtension) (n := n) (s := p) (toP := CommonCertificateExtension.toP)
      (ofP := CommonCertificateExtension.ofP) (af_elem <| af_elem <| af_nil) (rf_none rfl) (.inr rfl)
      (kf_choice
        (kf_plain (bf_plain_el (xfit_string v _ _)) rfl <| kf_elem (so_el (xemp_string _) (xfit_string v _ _)) rfl <| kf_nil)
        (kf_none (bf_plain_empty (xfit_string v _ _)) rfl <| kf_none (so_empty (xemp_string _) (xfit_string v _ _)) rfl <|
          kf_missing "customExtensionName" rfl kf_nil))) o ho
    simpa [CertificateExtension.XWritten, CertificateExtension.XFits, hp, hc, CommonCertificateExtension.toP] using h
  · rename_i c hp hc
    have h := (cf_struct (v := v) (p := .certificateExtension) (n := n) (s := c) (toP := CustomCertificateExtension.toP)
      (ofP := CustomCertificateExtension.ofP) (af_elem <| af_elem <| af_nil) (rf_none rfl) (.inr rfl)
      (kf_choice
        (kf_none (bf_plain_empty (xfit_string v _ _)) rfl <| kf_none (so_empty (xemp_string _) (xfit_string v _ _)) rfl <|
          kf_missing "commonExtensionName" rfl kf_nil)
        (kf_plain (bf_plain_el (xfit_string v _ _)) rfl <| kf_plain (so_opt (xfit_string v _ _)) rfl <| kf_nil))) o ho
    simpa [CertificateExtension.XWritten, CertificateExtension.XFits, hp, hc] using h
  · rename_i hp hc
    cases ho
    simp [CertificateExtension.XWritten, hp, hc]

theorem certificateExtension_unwritten (v : Int) (x : CertificateExtension) (h : ¬ x.XWritten) : x.XFits v := by
  simp only [CertificateExtension.XWritten, not_or, ne_eq, not_not] at h
  simp [CertificateExtension.XFits, h.1]

-- @@ Copyright
theorem xfit_copyright (v : Int) (n : String) (x : Copyright) : CFit v .text X.copyright n x True True :=
  fun o ho => xfit_string v n x.text o ho

-- @@ License
theorem xfit_license (v : Int) (n : String) (x : License) : CFit v .license X.license n x True (x.XFits v) := by
  have H := fun (T : x.id = "" ↔ x.name ≠ "") => CFit.congr (Q := x.XFits v)
    (cf_struct (v := v) (p := .license) (n := n) (s := x) (F := X.licenseFields) (toP := License.toP) (ofP := License.ofP)
      @{struct(gofields('License'), 'license')[1][len('cf_struct '):]}) (by
    simp only [License.XFits, License.toP, and_true, true_and, and_assoc, implies_true, ne_eq, or_false, false_or, T]
    by_cases h : x.name = "" <;> simp [h] <;> intros <;> omega)
  intro o ho
  simp only [X.license] at ho
  split at ho
  · cases ho
  · rename_i h
    split at ho
    · cases ho
    · rename_i h'
      exact H (by by_cases hi : x.id = "" <;> simp_all) o ho

-- @@ LicenseChoice
theorem xfit_licenseExpressionDetail (v : Int) (n : String) (x : LicenseExpressionDetail) :
    CFit v .licenseExpressionDetailedTypeDetails X.licenseExpressionDetail n x True True :=
  (cf_struct (F := X.licenseExpressionDetailFields) (aa_ok rfl <| af_elem <| af_elem <| af_nil)
    (rf_one rfl wr_here) (.inr rfl)
    (kf_plain (pt_opt fun a _ => xfit_attachedText v _ a) rfl <| kf_plain (so_opt (xfit_string v _ _)) rfl <| kf_nil)).congr
    (by simp)

theorem xfit_licenseExpression (v : Int) (n : String) (p : String × String × String × Unit) :
    CFit v .licenseExpression (XCodec.struct X.licenseExpressionFields id id) n p True
      (SpecVersion1_6 ≤ v ∨ p.2.2.1 = "" ∧ p.2.1 = "") :=
  (cf_struct (F := X.licenseExpressionFields) (af_chardata <| aa_since_oe rfl (emt_string _) <|
    aa_since_oe rfl (emt_string _) <| af_nil) (rf_none rfl) (.inl rfl) kf_nil).congr (by
      simp only [id]
      by_cases h : SpecVersion1_6 ≤ v <;> simp [h, and_comm])

theorem xfit_licenseExpressionDetailed (v : Int) (n : String)
    (p : String × String × String × PSlice LicenseExpressionDetail × Unit) :
    CFit v .licenseExpressionDetailed (XCodec.struct X.licenseExpressionDetailedFields id id) n p True True :=
  (cf_struct (F := X.licenseExpressionDetailedFields) (aa_ok rfl <| aa_ok rfl <| aa_ok rfl <| af_elem <| af_nil)
    (rf_one rfl wr_here) (.inr rfl)
    (kf_plain (lt_many fun a _ => xfit_licenseExpressionDetail v _ a) rfl <| kf_gap rfl <| kf_gap rfl <| kf_nil)).congr
    (by simp)

/-- What is written for a choice. -/
theorem licenseChoice_written (v : Int) {c : LicenseChoice} {k : List Xml} (h : X.licenseChoiceEnc c = some k) :
    (∃ l x, c.license = some l ∧ c.expression = "" ∧ k = [x] ∧ x.isElem "license" = true ∧
      (XValid v .license x ↔ l.XFits v)) ∨
    (c.license = none ∧ c.expression = "" ∧ k = []) ∨
    (∃ x, c.license = none ∧ c.expression ≠ "" ∧ c.expressionDetails = .nil ∧ k = [x] ∧ x.isElem "expression" = true ∧
      (XValid v .licenseExpression x ↔ SpecVersion1_6 ≤ v ∨ c.bomRef = "" ∧ c.acknowledgement.getD "" = "")) ∨
    (∃ x, c.license = none ∧ c.expression ≠ "" ∧ c.expressionDetails ≠ .nil ∧ k = [x] ∧
      x.isElem "expression-detailed" = true ∧ XValid v .licenseExpressionDetailed x) := by
  simp only [X.licenseChoiceEnc] at h
  split at h
  · rename_i l hl
    split at h
    · cases h
    · rename_i he
      obtain ⟨o, ho, rfl⟩ := Option.map_eq_some_iff.mp h
      obtain ⟨h₁, h₂⟩ := xfit_license v "license" l o ho
      obtain ⟨x, rfl⟩ := Option.isSome_iff_exists.mp (h₁.mpr trivial)
      exact .inl ⟨l, x, hl, not_not.mp he, rfl, h₂ x rfl⟩
  · rename_i hl
    split at h
    · rename_i he
      split at h
      · rename_i hd
        obtain ⟨o, ho, rfl⟩ := Option.map_eq_some_iff.mp h
        obtain ⟨h₁, h₂⟩ := xfit_licenseExpression v "expression" _ o ho
        obtain ⟨x, rfl⟩ := Option.isSome_iff_exists.mp (h₁.mpr trivial)
        refine .inr (.inr (.inl ⟨x, hl, he, ?_, rfl, h₂ x rfl⟩))
        cases hq : c.expressionDetails <;> simp_all [PSlice.isNil]
      · rename_i hd
        obtain ⟨o, ho, rfl⟩ := Option.map_eq_some_iff.mp h
        obtain ⟨h₁, h₂⟩ := xfit_licenseExpressionDetailed v "expression-detailed" _ o ho
        obtain ⟨x, rfl⟩ := Option.isSome_iff_exists.mp (h₁.mpr trivial)
        refine .inr (.inr (.inr ⟨x, hl, he, ?_, rfl, (h₂ x rfl).1, (h₂ x rfl).2.mpr trivial⟩))
        rintro hq
        simp [hq, PSlice.isNil] at hd
    · rename_i he
      cases h
      exact .inr (.inl ⟨hl, not_not.mp he, rfl⟩)

theorem xfitsLicenses_nil (v : Int) : XFitsLicenses v [] := .inl rfl

theorem isElem_unique {x : Xml} {m n : String} (h : x.isElem m = true) : x.isElem n = true ↔ m = n := by
  cases x with
  | elem k as ks => simp only [Xml.isElem, decide_eq_true_eq] at h ⊢; rw [h]
  | text s => simp [Xml.isElem] at h

theorem matches_el_one {v : Int} {ok : XPlace → Xml → Prop} {n : String} {p : XPlace} {x : Xml} :
    (Content.el n p).Matches v ok [x] ↔ x.isElem n = true ∧ ok p x := by
  rw [Content.matches_el]; simp

theorem xfit_licenses (v : Int) (n : String) (l : List LicenseChoice) :
    CFit v .licenseChoice X.licenses n l (l ≠ []) (XFitsLicenses v l) := by
  intro o ho
  cases hl : l with
  | nil =>
    subst hl
    simp only [X.licenses, Option.some.injEq] at ho
    subst ho
    simp
  | cons c cs =>
    have hne : l ≠ [] := by simp [hl]
    have ho' : (X.encEach X.licenseChoiceEnc l).map (fun ks => some (Xml.elem n [] ks)) = some o := by
      rw [hl] at ho ⊢; exact ho
    rw [← hl]
    clear hl ho
    obtain ⟨ks, hks, rfl⟩ := Option.map_eq_some_iff.mp ho'
    refine ⟨by simp [hne], ?_⟩
    simp only [Option.mem_def, Option.some.injEq, forall_eq']
    refine ⟨by simp [Xml.isElem], ?_⟩
    rw [xvalid_bare rfl (encEach_elems hks fun a _ k hk x hx => by
      rcases licenseChoice_written v hk with ⟨_, y, _, _, rfl, h, _⟩ | ⟨_, _, rfl⟩ | ⟨y, _, _, _, rfl, h, _⟩ |
          ⟨y, _, _, _, rfl, h, _⟩
      · rw [List.mem_singleton.mp hx]; exact ⟨_, h⟩
      · cases hx
      · rw [List.mem_singleton.mp hx]; exact ⟨_, h⟩
      · rw [List.mem_singleton.mp hx]; exact ⟨_, h⟩)]
    -- all licenses
    have hlic : (∀ x ∈ ks, x.isElem "license" = true ∧ XValid v .license x) ↔
        ∀ c ∈ l, (∀ y ∈ c.license, License.XFits v y) ∧ (c.license ≠ none ∨ c.expression = "") := by
      refine encEach_all hks fun a _ k hk => ?_
      rcases licenseChoice_written v hk with ⟨_, y, h₁, h₂, rfl, h, h'⟩ | ⟨h₁, h₂, rfl⟩ | ⟨y, h₁, h₂, h₃, rfl, h, h'⟩ |
          ⟨y, h₁, h₂, h₃, rfl, h, h'⟩
      · simp [h, h₁, h']
      · simp [h₁, h₂]
      · simp [isElem_unique h, h₁, h₂]
      · simp [isElem_unique h, h₁, h₂]
    -- all expressions
    have hexp : (∀ x ∈ ks, x.isElem "expression" = true ∧ XValid v .licenseExpression x) ↔
        ∀ c ∈ l, c.license = none ∧ (c.expression ≠ "" → c.expressionDetails = .nil ∧
          (SpecVersion1_6 ≤ v ∨ c.bomRef = "" ∧ c.acknowledgement.getD "" = "")) := by
      refine encEach_all hks fun a _ k hk => ?_
      rcases licenseChoice_written v hk with ⟨_, y, h₁, h₂, rfl, h, h'⟩ | ⟨h₁, h₂, rfl⟩ | ⟨y, h₁, h₂, h₃, rfl, h, h'⟩ |
          ⟨y, h₁, h₂, h₃, rfl, h, h'⟩
      · simp [isElem_unique h, h₁]
      · simp [h₁, h₂]
      · simp [h, h₁, h₂, h₃, h']
      · simp [isElem_unique h, h₁, h₂, h₃]
    -- any of them
    have hany : (∀ x ∈ ks, (Content.choice (.el "license" .license) (.choice (.el "expression" .licenseExpression)
        (.el "expression-detailed" .licenseExpressionDetailed))).Matches v (XValid v) [x]) ↔
        ∀ c ∈ l, (∀ y ∈ c.license, License.XFits v y) ∧ (c.license = none → c.expression ≠ "" →
          c.expressionDetails = .nil → (SpecVersion1_6 ≤ v ∨ c.bomRef = "" ∧ c.acknowledgement.getD "" = "")) := by
      refine encEach_all hks fun a _ k hk => ?_
      simp only [Content.matches_choice, matches_el_one]
      rcases licenseChoice_written v hk with ⟨_, y, h₁, h₂, rfl, h, h'⟩ | ⟨h₁, h₂, rfl⟩ | ⟨y, h₁, h₂, h₃, rfl, h, h'⟩ |
          ⟨y, h₁, h₂, h₃, rfl, h, h'⟩
      · simp [isElem_unique h, h₁, h']
      · simp [h₁, h₂]
      · simp [isElem_unique h, h₁, h₂, h₃, h']
      · simp [isElem_unique h, h₁, h₂, h₃, h']
    have hlen := encEach_length (w := fun c => decide (c.license ≠ none ∨ c.expression ≠ "")) hks fun a _ k hk => by
      rcases licenseChoice_written v hk with ⟨_, y, h₁, h₂, rfl, h, h'⟩ | ⟨h₁, h₂, rfl⟩ | ⟨y, h₁, h₂, h₃, rfl, h, h'⟩ |
          ⟨y, h₁, h₂, h₃, rfl, h, h'⟩ <;> simp [h₁, h₂]
    show (Content.switch SpecVersion1_7 (.switch SpecVersion1_1 (.some (.el "license" .license))
      (.choice (.many (.el "license" .license)) (.opt (.el "expression" .licenseExpression))))
      (.many (.choice (.el "license" .license) (.choice (.el "expression" .licenseExpression)
        (.el "expression-detailed" .licenseExpressionDetailed))))).Matches v (XValid v) ks ↔ _
    rw [Content.matches_switch, Content.matches_switch, matches_some_el, Content.matches_choice, Content.matches_many_el,
      matches_opt_el, matches_many_single, hlic, hexp, hany]
    · have hks0 : ks ≠ [] ↔ ∃ c ∈ l, c.license ≠ none ∨ c.expression ≠ "" := by
        rw [ne_eq, ← List.length_eq_zero_iff, hlen, List.length_eq_zero_iff, List.filter_eq_nil_iff]
        simp only [decide_eq_true_eq, not_forall, not_not, exists_prop]
      rw [hks0]
      simp only [XFitsLicenses, hne, false_or]
      by_cases h7 : SpecVersion1_7 ≤ v
      · have h6 : SpecVersion1_6 ≤ v := by simp only [SpecVersion1_7, SpecVersion1_6] at *; omega
        simp only [h7, h6, Int.not_lt.mpr h7, true_or, and_true, true_and, false_and, false_or, LicenseChoice.XFits, implies_true]
        refine forall₂_congr fun c hc => ?_
        by_cases hd : c.expressionDetails = .nil <;> simp [hd]
      · simp only [h7, Int.not_le.mp h7, true_and, false_and, or_false, false_or]
        by_cases h1 : SpecVersion1_1 ≤ v
        · simp only [h1, Int.not_lt.mpr h1, true_and, false_and, false_or, true_or, and_true]
          constructor
          · rintro (h | ⟨h, h'⟩)
            · refine ⟨fun c hc => ⟨(h c hc).1, fun hn he => ?_⟩, .inl fun c hc => (h c hc).2⟩
              exact absurd ((h c hc).2.resolve_left (by simp [hn])) he
            · refine ⟨fun c hc => ⟨by simp [(h' c hc).1], fun _ he => .inl ((h' c hc).2 he)⟩,
                .inr ⟨fun c hc => (h' c hc).1, ?_⟩⟩
              rw [hlen] at h
              convert h using 2
              refine List.filter_congr fun c hc => ?_
              simp [(h' c hc).1]
          · rintro ⟨h, h' | ⟨h', h''⟩⟩
            · exact .inl fun c hc => ⟨(h c hc).1, h' c hc⟩
            · refine .inr ⟨?_, fun c hc => ⟨h' c hc, fun he => ?_⟩⟩
              · rw [hlen]
                convert h'' using 2
                refine List.filter_congr fun c hc => ?_
                simp [h' c hc]
              · rcases (h c hc).2 (h' c hc) he with hh | ⟨_, hh⟩
                · exact hh
                · exact absurd hh h7
        · simp only [h1, Int.not_le.mp h1, true_and, false_and, or_false, false_or]
          constructor
          · rintro ⟨⟨c, hc, h⟩, h'⟩
            refine ⟨fun c hc => ⟨(h' c hc).1, fun hn he => ?_⟩, fun c hc => (h' c hc).2, c, hc, ?_⟩
            · exact absurd ((h' c hc).2.resolve_left (by simp [hn])) he
            · exact h.elim _root_.id fun he => (h' c hc).2.resolve_right he
          · rintro ⟨h, h', c, hc, hn⟩
            exact ⟨⟨c, hc, .inl hn⟩, fun c hc => ⟨(h c hc).1, h' c hc⟩⟩
    · intro l h
      simp only [Content.matches_choice, Content.matches_el] at h
      rcases h with ⟨x, rfl, _⟩ | ⟨x, rfl, _⟩ | ⟨x, rfl, _⟩ <;> exact ⟨x, rfl⟩

-- @@ Evidence
theorem evidenceIdentities_eq (x : Evidence) : X.evidenceIdentities x = x.writtenIdentities := by
  simp only [X.evidenceIdentities, Evidence.writtenIdentities]
  cases hc : x.identity with
  | none => rfl
  | some c =>
    cases hi : c.identities <;> cases hj : c.identity <;> simp [hi, hj, PSlice.isNil]

theorem xfit_evidence (v : Int) (n : String) (x : Evidence) :
    CFit v .componentEvidence X.evidence n x x.XWritten (x.XFits v) := by
  intro o ho
  simp only [X.evidence] at ho
  have nn : ∀ {α : Type} (p : PSlice α), p.isNil = true ↔ p = .nil := by
    intro α p; cases p <;> simp [PSlice.isNil]
  split at ho
  · rename_i h
    simp only [Option.isNone_iff_eq_none, nn] at h
    cases ho
    simp [Evidence.XWritten, h]
  · rename_i h
    simp only [Option.isNone_iff_eq_none, nn] at h
    have hw : x.XWritten := by
      simp only [Evidence.XWritten]
      by_contra hc
      simp only [not_or, ne_eq, not_not] at hc
      exact h ⟨hc.1, hc.2.1, hc.2.2.1, hc.2.2.2.1, hc.2.2.2.2⟩
    have H := (@{struct(EVF, 'componentEvidence')[1].replace('cf_struct', 'cf_struct (v := v) (p := .componentEvidence) (F := X.evidenceFields) (toP := _root_.id) (ofP := _root_.id)').replace('by simp [h, PSlice.elems]', 'by rw [h]; simp [PSlice.elems]')}) o ho
    simpa only [hw, evidenceIdentities_eq, Evidence.XFits, id, and_true, true_and, and_assoc] using H

theorem evidence_unwritten (v : Int) (x : Evidence) (h : ¬ x.XWritten) : x.XFits v := by
  simp only [Evidence.XWritten, not_or, ne_eq, not_not] at h
  obtain ⟨h₁, h₂, h₃, h₄, h₅⟩ := h
  simp only [Evidence.XFits, Evidence.writtenIdentities, h₁, h₂, h₃, h₄, PSlice.elems, List.not_mem_nil, true_or,
    and_true, XFitsLicenses, false_implies, implies_true]
  omega

-- @@ MLDatasetChoice
theorem xfit_mlDatasetChoice (v : Int) (n : String) (x : MLDatasetChoice) :
    CFit v .componentData X.mlDatasetChoice n x x.XWritten (x.XFits v) := by
  intro o ho
  simp only [X.mlDatasetChoice] at ho
  split at ho
  · rename_i h
    have H := (cf_struct (v := v) (p := .componentData) (n := n) (s := x.ref) (toP := fun s => (s, ()))
      (ofP := fun p => p.1) (af_elem <| af_nil) (rf_none rfl) (.inr rfl)
      (kf_none (bf_plain_empty (xfit_string v _ _)) rfl <| kf_missing "type" rfl kf_nil)) o ho
    simpa [MLDatasetChoice.XWritten, MLDatasetChoice.XFits, h] using H
  · rename_i h
    have h : x.ref = "" := not_not.mp h
    split at ho
    · rename_i d hd
      simpa [MLDatasetChoice.XWritten, MLDatasetChoice.XFits, h, hd] using xfit_componentData v n d o ho
    · rename_i hd
      cases ho
      simp [MLDatasetChoice.XWritten, h, hd]

theorem mlDatasetChoice_unwritten (v : Int) (x : MLDatasetChoice) (h : ¬ x.XWritten) : x.XFits v := by
  simp only [MLDatasetChoice.XWritten, not_or, ne_eq, not_not] at h
  simp [MLDatasetChoice.XFits, h]

-- @@ AsserterChoice
theorem xfit_asserterChoice (v : Int) (n : String) (x : AsserterChoice) :
    CFit v .asserter X.asserterChoice n x x.XWritten (x.XFits v) := by
  intro o ho
  simp only [X.asserterChoice] at ho
  split at ho
  · cases ho
  · rename_i a h₁ h₂
    have H := (cf_struct (v := v) (p := .asserter) (n := n) (s := some a) (toP := fun o => (o, ()))
      (ofP := fun p => p.1) (af_elem <| af_nil) (rf_none rfl) (.inr rfl)
      (kf_choice (kf_single (kf_elem (pp_el fun a _ => xfit_organizationalEntity v _ a) rfl kf_nil))
        (kf_choice
          (kf_single (kf_none (pt_empty fun a _ => xfit_organizationalEntity v _ a) rfl (kf_missing "contact" rfl kf_nil)))
          (kf_single (kf_none (pt_empty fun a _ => xfit_organizationalEntity v _ a) rfl (kf_missing "ref" rfl kf_nil)))))) o ho
    simpa [AsserterChoice.XWritten, AsserterChoice.XFits, h₁, h₂] using H
  · rename_i a h₁ h₂
    have H := (cf_struct (v := v) (p := .asserter) (n := n) (s := some a) (toP := fun o => (o, ()))
      (ofP := fun p => p.1) (af_elem <| af_nil) (rf_none rfl) (.inr rfl)
      (kf_choice
        (kf_single (kf_none (pt_empty fun a _ => xfit_organizationalContact v _ a) rfl (kf_missing "organization" rfl kf_nil)))
        (kf_choice (kf_single (kf_elem (pp_el fun a _ => xfit_organizationalContact v _ a) rfl kf_nil))
          (kf_single (kf_none (pt_empty fun a _ => xfit_organizationalContact v _ a) rfl (kf_missing "ref" rfl kf_nil)))))) o ho
    simpa [AsserterChoice.XWritten, AsserterChoice.XFits, h₁, h₂] using H
  · rename_i a h₁ h₂ h₃
    have H := (cf_struct (v := v) (p := .asserter) (n := n) (s := some a) (toP := fun o => (o, ()))
      (ofP := fun p => p.1) (af_elem <| af_nil) (rf_none rfl) (.inr rfl)
      (kf_choice
        (kf_single (kf_none (pt_empty fun a _ => xfit_bomReference v _ a) rfl (kf_missing "organization" rfl kf_nil)))
        (kf_choice
          (kf_single (kf_none (pt_empty fun a _ => xfit_bomReference v _ a) rfl (kf_missing "contact" rfl kf_nil)))
          (kf_single (kf_elem (pp_el fun a _ => xfit_bomReference_text v _ a) rfl kf_nil))))) o ho
    simpa [AsserterChoice.XWritten, AsserterChoice.XFits, h₁, h₂, h₃] using H
  · rename_i h₁ h₂ h₃
    cases ho
    simp [AsserterChoice.XWritten, h₁, h₂, h₃]

-- @@ Pedigree
theorem xfitsComponentList_iff {v : Int} : ∀ {xs : List Component}, XFitsComponentList v xs ↔ ∀ y ∈ xs, y.XFits v
  | [] => by simp [XFitsComponentList]
  | x :: xs => by simp [XFitsComponentList, xfitsComponentList_iff]

theorem xfitsComponents_iff {v : Int} {p : PSlice Component} : XFitsComponents v p ↔ ∀ y ∈ p.elems, y.XFits v := by
  cases p <;> simp [XFitsComponents, PSlice.elems, xfitsComponentList_iff]

theorem xfitsPedigreeOpt_iff {v : Int} {p : Option (Pedigree Component)} :
    XFitsPedigreeOpt v p ↔ ∀ y ∈ p, XFitsPedigree v y := by
  cases p <;> simp [XFitsPedigreeOpt]

theorem xfit_pedigreeWith (v : Int) (n : String) (x : Pedigree Component)
    (h_ancestors : ∀ c ∈ x.ancestors.elems, CFit v .component X.component "component" c True (c.XFits v))
    (h_descendants : ∀ c ∈ x.descendants.elems, CFit v .component X.component "component" c True (c.XFits v))
    (h_variants : ∀ c ∈ x.variants.elems, CFit v .component X.component "component" c True (c.XFits v)) :
    CFit v .pedigree (X.pedigree X.component) n x True (XFitsPedigree v x) := by
  refine (@{struct(gofields('Pedigree'), 'pedigree')[1]}).congr ?_
  cases x
  simp only [XFitsPedigree, Pedigree.toP, xfitsComponents_iff, and_true, true_and, and_assoc]

-- @@ Component
theorem xfit_componentWith (v : Int) (n : String) (x : Component)
    (h_components : ∀ c ∈ x.components.elems, CFit v .component X.component "component" c True (c.XFits v))
    (h_pedigree : ∀ p ∈ x.pedigree, CFit v .pedigree (X.pedigree X.component) "pedigree" p True (XFitsPedigree v p)) :
    CFit v .component (X.componentWith X.component) n x True (x.XFits v) := by
  refine (@{struct(gofields('Component'), 'component')[1]}).congr ?_
  cases x
  simp only [Component.XFits, Component.toP, xfitsComponents_iff, xfitsPedigreeOpt_iff, and_true, true_and, and_assoc,
    ne_eq, or_false, false_or]

theorem xfit_component (v : Int) (n : String) (x : Component) :
    CFit v .component X.component n x True (x.XFits v) := by
  suffices H : ∀ k n (x : Component), x.height ≤ k → CFit v .component X.component n x True (x.XFits v) from
    H x.height n x (Nat.le_refl _)
  intro k
  induction k with
  | zero => intro n x h; rw [Component.height_eq] at h; omega
  | succ k ih =>
    intro n x h o ho
    rw [xcomponent_enc] at ho
    revert o
    rw [Component.height_eq] at h
    have hm : max (heightComponents x.components) (heightPedigreeOpt x.pedigree) ≤ k := by omega
    rw [Nat.max_le] at hm
    have hl : ∀ p : PSlice Component, heightComponents p ≤ k →
        ∀ c ∈ p.elems, CFit v .component X.component "component" c True (c.XFits v) := by
      intro p hp
      rw [heightComponents_le] at hp
      exact fun c hc => ih _ c (hp c hc)
    refine xfit_componentWith v n x (hl _ hm.1) ?_
    intro p hp
    have hp : x.pedigree = some p := hp
    have hm := hm.2
    simp only [hp, heightPedigreeOpt, heightPedigree_eq, Nat.max_le] at hm
    exact xfit_pedigreeWith v _ p (hl _ hm.1) (hl _ hm.2.1) (hl _ hm.2.2)

-- @@ DataClassification
theorem attrUnlessEmpty_fit {v : Int} {n s : String} : X.attrUnlessEmpty n s = [] ∨ ∃ t, X.attrUnlessEmpty n s = [(n, t)] := by
  unfold X.attrUnlessEmpty; split
  · exact .inr ⟨_, rfl⟩
  · exact .inl rfl

theorem bf_urls (v : Int) (n : String) (us : PSlice String) :
    BFit v (.opt (.el n .issueTypeReferences)) (n, some (X.urlsElem n us)) True := by
  intro ks hk
  simp only [Option.some.injEq] at hk
  subst hk
  rw [matches_opt_el]
  unfold X.urlsElem
  split
  · simp
  · rename_i us _
    simp only [List.mem_singleton, forall_eq, Xml.isElem, decide_true, true_and, List.length_singleton, Nat.le_refl,
      iff_true]
    rw [xvalid_bare rfl]
    · show (Content.many (.el "url" .text)).Matches v (XValid v) _
      rw [Content.matches_many_el]
      intro x hx
      obtain ⟨u, _, rfl⟩ := List.mem_map.mp hx
      refine ⟨by simp [Xml.isElem], ?_⟩
      rw [xvalid_iff]
      exact ⟨⟨fun a ha => (by cases ha), fun d hd => (by cases hd)⟩, .inl rfl, by
        rw [elements_textKids]; exact .empty⟩
    · intro x hx
      obtain ⟨u, _, rfl⟩ := List.mem_map.mp hx
      exact ⟨"url", by simp [Xml.isElem]⟩

theorem bf_classification (v : Int) (x : DataClassification) :
    BFit v (.opt (.el "classification" .dataClassification)) ("classification", some (
      if x.classification ≠ "" ∨ x.flow ≠ "" then
        [.elem "classification" (X.attrUnlessEmpty "flow" x.flow) (textKids (sanitize x.classification))]
      else [])) (x.flow = "" → x.classification = "") := by
  intro ks hk
  simp only [Option.some.injEq] at hk
  subst hk
  rw [matches_opt_el]
  split
  · rename_i h
    simp only [List.mem_singleton, forall_eq, Xml.isElem, decide_true, true_and, List.length_singleton, Nat.le_refl]
    rw [xvalid_iff]
    by_cases hf : x.flow = ""
    · have hc : x.classification ≠ "" := h.resolve_right (by simp [hf])
      simp only [hf, hc, true_implies, iff_false, X.attrUnlessEmpty, ne_eq, not_true_eq_false, if_false]
      rintro ⟨⟨_, h⟩, _⟩
      obtain ⟨a, ha, _⟩ := h { name := "flow", required := true } (by simp [XPlace.attrs]) rfl (by simp [XAttr.In])
      cases ha
    · simp only [hf, false_implies, iff_true, X.attrUnlessEmpty, ne_eq, not_false_eq_true, if_true, List.mem_singleton,
        forall_eq]
      refine ⟨⟨by simp [XPlace.attrs, XAttr.In], by simp [XPlace.attrs]⟩, .inl rfl, ?_⟩
      rw [elements_textKids]; exact .empty
  · rename_i h
    simp only [not_or, ne_eq, not_not] at h
    simp [h]

theorem xfit_dataClassification (v : Int) (n : String) (x : DataClassification) (hn : n = "dataflow" := by rfl) :
    CFit v .dataflow X.dataClassification n x True (x.XFits v) := by
  subst hn
  intro o ho
  simp only [X.dataClassification] at ho
  split at ho
  · cases ho
  · rename_i gs hgs
    cases ho
    refine ⟨by simp, ?_⟩
    simp only [Option.mem_def, Option.some.injEq, forall_eq', Xml.isElem, decide_true, true_and]
    have hk := (kf_elem (bf_classification v x) rfl <|
      kf_elem (pp_opt (n := "governance") (o := x.governance) fun a _ => xfit_dataGovernance v _ a) rfl <|
      kf_plain (bf_urls v "source" x.source) rfl <| kf_plain (bf_urls v "destination" x.destination) rfl <| kf_nil) _
      (by simp only [cat, hgs, Option.map_some, List.append_nil]; rfl)
    rw [xvalid_iff]
    have he : ∀ ks : List Xml, (∀ y ∈ ks, ∃ n ∈ ["classification", "governance", "source", "destination"],
        y.isElem n = true) → Xml.elements ks = ks := fun ks h =>
      elements_of fun y hy => let ⟨n, _, h⟩ := h y hy; ⟨n, h⟩
    have he := he _ hk.1
    simp only [List.append_assoc] at he hk ⊢
    rw [he]
    have hc := hk.2
    simp only [and_true] at hc
    refine (Iff.trans ⟨fun h => h.2.2, fun h => ⟨⟨?_, by simp [XPlace.attrs]⟩, .inr ?_, h⟩⟩ hc)
    · intro a ha
      simp only [X.attrUnlessEmpty, List.mem_append] at ha
      rcases ha with ha | ha <;> split at ha <;> simp_all [XPlace.attrs, XAttr.In]
    · intro s hs
      obtain ⟨m, _, hm⟩ := hk.1 _ hs
      simp [Xml.isElem] at hm

-- @@ Service
theorem xfitsServiceList_iff {v : Int} : ∀ {xs : List Service}, XFitsServiceList v xs ↔ ∀ y ∈ xs, y.XFits v
  | [] => by simp [XFitsServiceList]
  | x :: xs => by simp [XFitsServiceList, xfitsServiceList_iff]

theorem xfitsServices_iff {v : Int} {p : PSlice Service} : XFitsServices v p ↔ ∀ y ∈ p.elems, y.XFits v := by
  cases p <;> simp [XFitsServices, PSlice.elems, xfitsServiceList_iff]

theorem xfit_serviceWith (v : Int) (n : String) (x : Service)
    (h_services : ∀ c ∈ x.services.elems, CFit v .service X.service "service" c True (c.XFits v)) :
    CFit v .service (X.serviceWith X.service) n x True (x.XFits v) := by
  refine (@{struct(gofields('Service'), 'service')[1]}).congr ?_
  cases x
  simp only [Service.XFits, Service.toP, xfitsServices_iff, and_true, true_and, and_assoc, ne_eq, or_false, false_or]

theorem xfit_service (v : Int) (n : String) (x : Service) : CFit v .service X.service n x True (x.XFits v) := by
  suffices H : ∀ k n (x : Service), x.height ≤ k → CFit v .service X.service n x True (x.XFits v) from
    H x.height n x (Nat.le_refl _)
  intro k
  induction k with
  | zero => intro n x h; rw [Service.height_eq] at h; omega
  | succ k ih =>
    intro n x h o ho
    rw [xservice_enc] at ho
    revert o
    rw [Service.height_eq] at h
    have hm : heightServices x.services ≤ k := by omega
    rw [heightServices_le] at hm
    exact xfit_serviceWith v n x fun c hc => ih _ c (hm c hc)

-- @@ Definitions
theorem bf_enclosed {v : Int} {n : String} {r : XPlace} {α : Type} {f : α → Option (List Xml)} {q : PSlice α} {P : Prop}
    (side : (r.attrs.all fun d => !d.required) = true)
    (he : ∀ a ∈ q.elems, ∀ k, f a = some k → ∀ x ∈ k, ∃ m, x.isElem m = true)
    (h : ∀ ks, X.encEach f q.elems = some ks → (r.content.Matches v (XValid v) ks ↔ P)) :
    BFit v (.opt (.el n r)) (n, X.enclosed n f q) (q = .nil ∨ P) := by
  intro ks hk
  cases q with
  | nil =>
    cases hk
    simp [matches_opt_el]
  | nilSlice =>
    simp only [X.enclosed, Option.map_eq_some_iff] at hk
    obtain ⟨es, hes, rfl⟩ := hk
    rw [matches_opt_el, ← h es hes]
    simp [Xml.isElem, xvalid_bare side (encEach_elems hes he)]
  | list xs =>
    simp only [X.enclosed, Option.map_eq_some_iff] at hk
    obtain ⟨es, hes, rfl⟩ := hk
    rw [matches_opt_el, ← h es hes]
    simp [Xml.isElem, xvalid_bare side (encEach_elems hes he)]

theorem bf_enclosed_empty {v : Int} {n : String} {α : Type} {f : α → Option (List Xml)} {q : PSlice α} :
    BFit v .empty (n, X.enclosed n f q) (q = .nil) := by
  intro ks hk
  cases q with
  | nil => cases hk; simp [Content.matches_empty]
  | nilSlice =>
    simp only [X.enclosed, Option.map_eq_some_iff] at hk
    obtain ⟨es, hes, rfl⟩ := hk
    simp [Xml.isElem, Content.matches_empty]
  | list xs =>
    simp only [X.enclosed, Option.map_eq_some_iff] at hk
    obtain ⟨es, hes, rfl⟩ := hk
    simp [Xml.isElem, Content.matches_empty]

theorem standard_written (v : Int) {s : StandardDefinition} {k : List Xml}
    (h : (X.standardDefinition.enc "standard" s).map (·.toList) = some k) :
    ∃ x, k = [x] ∧ x.isElem "standard" = true ∧ (XValid v .standard x ↔ s.XFits v) := by
  obtain ⟨o, ho, rfl⟩ := Option.map_eq_some_iff.mp h
  obtain ⟨h₁, h₂⟩ := xfit_standardDefinition v "standard" s o ho
  obtain ⟨x, rfl⟩ := Option.isSome_iff_exists.mp (h₁.mpr trivial)
  exact ⟨x, rfl, h₂ x rfl⟩

theorem patentChoice_written (v : Int) {c : PatentChoice} {k : List Xml} (h : X.patentChoiceEnc c = some k) :
    (∃ p x, c.patent = some p ∧ k = [x] ∧ x.isElem "patent" = true ∧ (XValid v .patent x ↔ p.XFits v)) ∨
    (∃ f x, c.patent = none ∧ c.patentFamily = some f ∧ k = [x] ∧ x.isElem "patentFamily" = true ∧
      (XValid v .patentFamily x ↔ f.XFits v)) ∨
    (c.patent = none ∧ c.patentFamily = none ∧ k = []) := by
  simp only [X.patentChoiceEnc] at h
  split at h
  · rename_i p hp
    obtain ⟨o, ho, rfl⟩ := Option.map_eq_some_iff.mp h
    obtain ⟨h₁, h₂⟩ := xfit_patent v "patent" p o ho
    obtain ⟨x, rfl⟩ := Option.isSome_iff_exists.mp (h₁.mpr trivial)
    exact .inl ⟨p, x, hp, rfl, h₂ x rfl⟩
  · rename_i f hp hf
    obtain ⟨o, ho, rfl⟩ := Option.map_eq_some_iff.mp h
    obtain ⟨h₁, h₂⟩ := xfit_patentFamily v "patentFamily" f o ho
    obtain ⟨x, rfl⟩ := Option.isSome_iff_exists.mp (h₁.mpr trivial)
    exact .inr (.inl ⟨f, x, hp, hf, rfl, h₂ x rfl⟩)
  · rename_i hp hf
    cases h
    exact .inr (.inr ⟨hp, hf, rfl⟩)

theorem xfit_definitions (v : Int) (n : String) (x : Definitions) :
    CFit v .definitions X.definitions n x True (x.XFits v) := by
  have hs : BFit v (.opt (.el "standards" .standards)) ("standards",
      X.enclosed "standards" (fun s => (X.standardDefinition.enc "standard" s).map (·.toList)) x.standards)
      (x.standards = .nil ∨ ∀ y ∈ x.standards.elems, StandardDefinition.XFits v y) := by
    refine bf_enclosed rfl (fun a _ k hk x hx => ?_) fun ks hks => ?_
    · obtain ⟨y, rfl, h, _⟩ := standard_written v hk
      rw [List.mem_singleton.mp hx]; exact ⟨_, h⟩
    · show (Content.many (.el "standard" .standard)).Matches v (XValid v) ks ↔ _
      rw [Content.matches_many_el]
      refine encEach_all hks fun a _ k hk => ?_
      obtain ⟨y, rfl, h, h'⟩ := standard_written v hk
      simp [h, h']
  have hp : BFit v (.opt (.el "patents" .definitionsTypePatents)) ("patents",
      X.enclosed "patents" X.patentChoiceEnc x.patents)
      (x.patents = .nil ∨ ∀ y ∈ x.patents.elems, (∀ z ∈ y.patent, Patent.XFits v z) ∧
        (y.patent = none → ∀ z ∈ y.patentFamily, PatentFamily.XFits v z)) := by
    refine bf_enclosed rfl (fun a _ k hk x hx => ?_) fun ks hks => ?_
    · rcases patentChoice_written v hk with ⟨_, y, _, rfl, h, _⟩ | ⟨_, y, _, _, rfl, h, _⟩ | ⟨_, _, rfl⟩
      · rw [List.mem_singleton.mp hx]; exact ⟨_, h⟩
      · rw [List.mem_singleton.mp hx]; exact ⟨_, h⟩
      · cases hx
    · show (Content.many (.choice (.el "patent" .patent) (.el "patentFamily" .patentFamily))).Matches v (XValid v) ks ↔ _
      rw [matches_many_single]
      · refine encEach_all hks fun a _ k hk => ?_
        simp only [Content.matches_choice, matches_el_one]
        rcases patentChoice_written v hk with ⟨_, y, h₁, rfl, h, h'⟩ | ⟨_, y, h₁, h₂, rfl, h, h'⟩ | ⟨h₁, h₂, rfl⟩
        · simp [isElem_unique h, h₁, h']
        · simp [isElem_unique h, h₁, h₂, h']
        · simp [h₁, h₂]
      · intro l h
        simp only [Content.matches_choice, Content.matches_el] at h
        rcases h with ⟨x, rfl, _⟩ | ⟨x, rfl, _⟩ <;> exact ⟨x, rfl⟩
  intro o ho
  simp only [X.definitions] at ho
  split at ho
  · rename_i ss ps hss hps
    cases ho
    refine ⟨by simp, ?_⟩
    simp only [Option.mem_def, Option.some.injEq, forall_eq', Xml.isElem, decide_true, true_and]
    have hk := (kf_elem hs rfl <| kf_elem (bf_since_absorb (w := SpecVersion1_7) bf_enclosed_empty hp rfl) rfl <| kf_nil) (ss ++ ps)
      (by simp [cat, hss, hps])
    rw [xvalid_bare rfl fun y hy => let ⟨m, _, h⟩ := hk.1 y hy; ⟨m, h⟩]
    refine hk.2.trans ?_
    simp only [Definitions.XFits, and_true]
    refine and_congr_left fun _ => ⟨fun h => ?_, .inr⟩
    rcases h with h | h
    · simp [h, PSlice.elems]
    · exact h
  · cases ho

-- @@ Dependency
theorem xfit_dependencyRef (v : Int) (n : String) (x : String) :
    CFit v .dependency X.dependencyRef n x True True :=
  (cf_struct (aa_ok rfl <| af_nil) (rf_one rfl wr_here) (.inr rfl)
    fun ks h => by cases h; exact ⟨by simp, iff_true_intro .manyNil⟩).congr (by simp)

theorem xfit_dependencyRef_bomReference (v : Int) (n : String) (x : String) :
    CFit v .bomReference X.dependencyRef n x True True :=
  (cf_struct (aa_ok rfl <| af_nil) (rf_one rfl wr_here) (.inr rfl) kf_nil).congr (by simp)

theorem xfit_dependency (v : Int) (n : String) (x : Dependency) :
    CFit v .dependency X.dependency n x True (x.XFits v) := by
  have hk : KFit v XPlace.dependency.content (X.dependencyFields.blks x.toP) (x.XFits v) := by
    intro ks hks
    obtain ⟨ds, l, hd, hl, rfl⟩ := cat_cons hks
    obtain ⟨ps, m, hp, hm, rfl⟩ := cat_cons hl
    cases hm
    obtain ⟨hd₁, hd₂⟩ := lt_many (v := v) (n := "dependency") (oe := true) (q := x.toP.2.1)
      (fun a _ => xfit_dependencyRef v _ a) ds hd
    obtain ⟨hp₁, hp₂⟩ := lt_many (v := v) (n := "provides") (oe := true) (q := x.toP.2.2.1)
      (fun a _ => xfit_dependencyRef_bomReference v _ a) ps hp
    have hp₃ := (lp_empty (v := v) (n := "provides") (oe := true) (q := x.toP.2.2.1) (fun _ => rfl)
      (fun a _ => xfit_dependencyRef_bomReference v _ a) ps hp).2
    rw [Content.matches_many_el, iff_true] at hd₂ hp₂
    rw [Content.matches_empty] at hp₃
    rw [List.append_nil]
    refine ⟨fun y hy => ?_, ?_⟩
    · rcases List.mem_append.mp hy with hy | hy
      · exact ⟨"dependency", by simp [XFields.blks, X.dependencyFields, XField.list], hd₁ y hy⟩
      · exact ⟨"provides", by simp [XFields.blks, X.dependencyFields, XField.list], hp₁ y hy⟩
    · show (Content.many (.seq (.switch SpecVersion1_6 (.el "dependency" .dependency) (.opt (.el "dependency" .dependency)))
        (.seq (.since SpecVersion1_6 (.opt (.el "provides" .bomReference))) .empty))).Matches v (XValid v) _ ↔ _
      have hx : x.XFits v ↔ ps = [] ∨ SpecVersion1_6 ≤ v := by rw [hp₃]; rfl
      rw [hx]
      by_cases h6 : SpecVersion1_6 ≤ v
      · simp only [h6, or_true, iff_true]
        have : ∀ y ∈ ds ++ ps, y.isElem "dependency" = true ∧ XValid v .dependency y ∨
            y.isElem "provides" = true ∧ XValid v .bomReference y := by
          intro y hy
          rcases List.mem_append.mp hy with hy | hy
          · exact .inl (hd₂ y hy)
          · exact .inr (hp₂ y hy)
        generalize ds ++ ps = l at this
        induction l with
        | nil => exact .manyNil
        | cons y l ih =>
          have : (Content.many _).Matches v (XValid v) ([y] ++ l) :=
            .manyCons (a := .seq (.switch SpecVersion1_6 (.el "dependency" .dependency)
              (.opt (.el "dependency" .dependency))) (.seq (.since SpecVersion1_6 (.opt (.el "provides" .bomReference)))
              .empty)) ?_ (ih fun z hz => this z (by simp [hz]))
          · exact this
          · rcases this y (by simp) with h | h
            · exact .seq (l := [y]) (m := []) (.new h6 (.optSome (.el h.1 h.2))) (.seq (l := []) (m := []) (.new h6 .optNone) .empty)
            · exact .seq (l := []) (m := [y]) (.new h6 .optNone) (.seq (l := [y]) (m := []) (.new h6 (.optSome (.el h.1 h.2))) .empty)
      · simp only [h6, or_false]
        have hv : v < SpecVersion1_6 := Int.not_le.mp h6
        have hA : ∀ l, (Content.seq (.switch SpecVersion1_6 (.el "dependency" .dependency)
            (.opt (.el "dependency" .dependency))) (.seq (.since SpecVersion1_6 (.opt (.el "provides" .bomReference)))
            .empty)).Matches v (XValid v) l ↔ (Content.el "dependency" .dependency).Matches v (XValid v) l := by
          intro l
          simp [Content.matches_seq, Content.matches_switch, Content.since, Content.matches_empty, h6, hv]
        rw [matches_many_single fun l h => let ⟨x, h, _⟩ := Content.matches_el.mp ((hA l).mp h); ⟨x, h⟩]
        simp only [hA, matches_el_one]
        constructor
        · intro h
          cases ps with
          | nil => rfl
          | cons y ps =>
            have hy := (h y (by simp)).1
            rw [isElem_unique (hp₁ y (by simp))] at hy
            exact absurd (show "provides" = "dependency" from hy) (by decide)
        · rintro rfl y hy
          exact hd₂ y (by simpa using hy)
  exact fun o ho => ((cf_struct (F := X.dependencyFields) (ofP := Dependency.ofP) (aa_ok rfl <| af_elem <| af_elem <| af_nil) (rf_one rfl wr_here) (.inr rfl) hk).congr
    (by simp)) o ho

-- @@ EnvironmentVariableChoice
theorem environmentVariable_written (v : Int) {c : EnvironmentVariableChoice} {k : List Xml}
    (h : X.environmentVariableEnc c = some k) :
    k = [] ∨ ∃ x, k = [x] ∧ (x.isElem "environmentVar" = true ∧ XValid v .property x ∨
      x.isElem "value" = true ∧ XValid v .text x) := by
  simp only [X.environmentVariableEnc] at h
  split at h
  · rename_i p hp
    split at h
    · cases h
    · obtain ⟨o, ho, rfl⟩ := Option.map_eq_some_iff.mp h
      obtain ⟨h₁, h₂⟩ := xfit_property v "environmentVar" p o ho
      obtain ⟨x, rfl⟩ := Option.isSome_iff_exists.mp (h₁.mpr trivial)
      exact .inr ⟨x, rfl, .inl ⟨(h₂ x rfl).1, (h₂ x rfl).2.mpr trivial⟩⟩
  · split at h
    · obtain ⟨o, ho, rfl⟩ := Option.map_eq_some_iff.mp h
      obtain ⟨h₁, h₂⟩ := xfit_string v "value" c.value o ho
      obtain ⟨x, rfl⟩ := Option.isSome_iff_exists.mp (h₁.mpr trivial)
      exact .inr ⟨x, rfl, .inr ⟨(h₂ x rfl).1, (h₂ x rfl).2.mpr trivial⟩⟩
    · cases h; exact .inl rfl

theorem xfit_environmentVariables (v : Int) (n : String) (l : List EnvironmentVariableChoice) :
    CFit v .inputTypeEnvironmentVars X.environmentVariables n l (l ≠ []) True := by
  intro o ho
  cases hl : l with
  | nil =>
    subst hl
    simp only [X.environmentVariables, Option.some.injEq] at ho
    subst ho
    simp
  | cons c cs =>
    have hne : l ≠ [] := by simp [hl]
    have ho' : (X.encEach X.environmentVariableEnc l).map (fun ks => some (Xml.elem n [] ks)) = some o := by
      rw [hl] at ho ⊢; exact ho
    rw [← hl]
    clear hl ho
    obtain ⟨ks, hks, rfl⟩ := Option.map_eq_some_iff.mp ho'
    refine ⟨by simp [hne], ?_⟩
    simp only [Option.mem_def, Option.some.injEq, forall_eq', iff_true]
    refine ⟨by simp [Xml.isElem], ?_⟩
    rw [xvalid_bare rfl (encEach_elems hks fun a _ k hk x hx => by
      rcases environmentVariable_written v hk with rfl | ⟨y, rfl, h | h⟩
      · cases hx
      · rw [List.mem_singleton.mp hx]; exact ⟨_, h.1⟩
      · rw [List.mem_singleton.mp hx]; exact ⟨_, h.1⟩)]
    show (Content.many (.choice (.el "environmentVar" .property) (.el "value" .text))).Matches v (XValid v) ks
    rw [matches_many_single]
    · refine (encEach_all (P := fun _ => True) hks fun a _ k hk => ?_).mpr fun _ _ => trivial
      simp only [Content.matches_choice, matches_el_one, iff_true]
      rcases environmentVariable_written v hk with rfl | ⟨y, rfl, h⟩
      · simp
      · simpa using h
    · intro l h
      simp only [Content.matches_choice, Content.matches_el] at h
      rcases h with ⟨x, rfl, _⟩ | ⟨x, rfl, _⟩ <;> exact ⟨x, rfl⟩

-- @@ ToolsChoice
theorem xfit_toolsParts (v : Int) (n : String) (p : PSlice Tool × PSlice Component × PSlice Service × Unit) :
    CFit v .tools (XCodec.struct X.toolsChoiceFields id id) n p True
      (@{conj(kids(places['tools'][2], TCF)[0])}) := by
  refine (@{struct(TCF, 'tools')[1].replace('by simp [h, PSlice.elems]', 'by rw [h]; simp [PSlice.elems]')}).congr ?_
  simp only [id, and_true, true_and, and_assoc]

theorem xfit_toolsChoice (v : Int) (n : String) (x : ToolsChoice) :
    CFit v .tools X.toolsChoice n x x.XWritten (x.XFits v) := by
  have nn : ∀ {α : Type} (p : PSlice α), p.isNil = true ↔ p = .nil := by
    intro α p; cases p <;> simp [PSlice.isNil]
  intro o ho
  simp only [X.toolsChoice] at ho
  obtain ⟨t, c, s⟩ := x
  simp only [ToolsChoice.XWritten, ToolsChoice.XFits]
  split at ho
  · cases ho
  · rename_i h1
    simp only [nn] at h1
    split at ho
    · rename_i ht
      simp only [nn] at ht
      have hcs : c = .nil ∧ s = .nil :=
        ⟨Classical.byContradiction fun h => h1 ⟨ht, .inl h⟩, Classical.byContradiction fun h => h1 ⟨ht, .inr h⟩⟩
      have H := xfit_toolsParts v n _ o ho
      obtain ⟨rfl, rfl⟩ := hcs
      refine ⟨by simpa [ht] using H.1, fun y hy => ⟨(H.2 y hy).1, (H.2 y hy).2.trans ?_⟩⟩
      have he : (PSlice.nil : PSlice Component).elems = [] ∧ (PSlice.nil : PSlice Service).elems = [] := ⟨rfl, rfl⟩
      simp only [he, and_true, true_and, true_or, List.not_mem_nil, false_implies, implies_true]
      constructor
      · rintro (⟨_, h⟩ | ⟨_, h | h⟩)
        · exact h
        · exact h
        · simp [h]
      · intro h
        by_cases hv : v < SpecVersion1_5
        · exact .inl ⟨hv, h⟩
        · exact .inr ⟨Int.not_lt.mp hv, .inl h⟩
    · rename_i ht
      simp only [nn] at ht
      have ht : t = .nil := Classical.byContradiction ht
      subst ht
      split at ho
      · rename_i hcs
        simp only [nn] at hcs
        have H := xfit_toolsParts v n _ o ho
        refine ⟨by simpa using H.1.trans (by simpa using hcs), fun y hy => ⟨(H.2 y hy).1, (H.2 y hy).2.trans ?_⟩⟩
        have he : (PSlice.nil : PSlice Tool).elems = [] := rfl
        simp only [he, and_true, true_and, List.not_mem_nil, false_implies, implies_true]
        constructor
        · rintro (⟨_, h⟩ | ⟨hv, h | h⟩)
          · exact .inl h
          · exact .inl h
          · exact .inr ⟨hv, h⟩
        · rintro (h | ⟨hv, h⟩)
          · by_cases hv : v < SpecVersion1_5
            · exact .inl ⟨hv, h⟩
            · exact .inr ⟨Int.not_lt.mp hv, .inl h⟩
          · exact .inr ⟨hv, .inr h⟩
      · rename_i hcs
        simp only [nn, not_or, not_not] at hcs
        cases ho
        simp [hcs]

theorem toolsChoice_unwritten (v : Int) (x : ToolsChoice) (h : ¬ x.XWritten) : x.XFits v := by
  simp only [ToolsChoice.XWritten, not_or, ne_eq, not_not] at h
  simp [ToolsChoice.XFits, h, PSlice.elems]

