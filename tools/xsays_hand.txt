-- @@ CertificateState
theorem xsay_certificateState (n : Nat) (hR : Rules P Q) : ∃ I, SayX P Q n X.certificateState I := by
  have hs := fun m oe => saye_plain (m := m) (oe := oe) (sayx_simple (n := n) hR (sayt_string hR))
  have raw : SayFs P Q n X.certificateStateRaw _ :=
    sayf_elem (hs _ _) (sayf_elem (hs _ _) (sayf_elem (hs _ _) (sayf_elem (hs _ _) (sayf_nil hR))))
  have h1 : SayX P Q n X.predefinedCertificateState _ :=
    sayx_struct hR (fun _ => rfl) (Nat.le_of_ble_eq_true rfl) (sayf_elem (hs _ _) (sayf_elem (hs _ _) (sayf_nil hR)))
  have h2 : SayX P Q n X.customCertificateState _ :=
    sayx_struct hR (fun _ => rfl) (Nat.le_of_ble_eq_true rfl) (sayf_elem (hs _ _) (sayf_elem (hs _ _) (sayf_elem (hs _ _) (sayf_nil hR))))
  refine ⟨fun v => (∀ p ∈ v.predefined, Q (sanitize p.state) ∧ Q (sanitize p.reason) ∧ True) ∧
    ∀ p ∈ v.custom, Q (sanitize p.name) ∧ Q (sanitize p.description) ∧ Q (sanitize p.reason) ∧ True,
    ⟨nofun, nofun⟩, fun m v x hv he => ?_, fun x a b hx hr ha hd => ?_⟩
  · simp only [X.certificateState] at he
    split at he
    · cases he
    · rename_i hp _; exact h1.enc m _ x (hv.1 _ hp) he
    · rename_i hp; exact h2.enc m _ x (hv.2 _ hp) he
    · cases he
  · simp only [X.certificateState] at hd
    split at hd
    · cases hd
    · rename_i state name description reason hq
      have hk := raw.dec hR (Nat.le_of_lt hx) hr raw.zero hq
      obtain ⟨k1, k2, k3, k4, _⟩ := hk
      split at hd <;> cases hd
      · exact ⟨by rintro _ ⟨⟩; exact ⟨k1, k4, trivial⟩, ha.2⟩
      · exact ⟨ha.1, by rintro _ ⟨⟩; exact ⟨k2, k3, k4, trivial⟩⟩

-- @@ CertificateExtension
theorem xsay_certificateExtension (n : Nat) (hR : Rules P Q) : ∃ I, SayX P Q n X.certificateExtension I := by
  have hs := fun m oe => saye_plain (m := m) (oe := oe) (sayx_simple (n := n) hR (sayt_string hR))
  have raw : SayFs P Q n X.certificateExtensionRaw _ :=
    sayf_elem (hs _ _) (sayf_elem (hs _ _) (sayf_elem (hs _ _) (sayf_elem (hs _ _) (sayf_nil hR))))
  have h1 : SayX P Q n X.commonCertificateExtension _ :=
    sayx_struct hR (fun _ => rfl) (Nat.le_of_ble_eq_true rfl) (sayf_elem (hs _ _) (sayf_elem (hs _ _) (sayf_nil hR)))
  have h2 : SayX P Q n X.customCertificateExtension _ :=
    sayx_struct hR (fun _ => rfl) (Nat.le_of_ble_eq_true rfl) (sayf_elem (hs _ _) (sayf_elem (hs _ _) (sayf_nil hR)))
  refine ⟨fun v => (∀ p ∈ v.common, Q (sanitize p.name) ∧ Q (sanitize p.value) ∧ True) ∧
    ∀ p ∈ v.custom, Q (sanitize p.name) ∧ Q (sanitize p.value) ∧ True,
    ⟨nofun, nofun⟩, fun m v x hv he => ?_, fun x a b hx hr ha hd => ?_⟩
  · simp only [X.certificateExtension] at he
    split at he
    · cases he
    · rename_i hp _; exact h1.enc m _ x (hv.1 _ hp) he
    · rename_i hp; exact h2.enc m _ x (hv.2 _ hp) he
    · cases he
  · simp only [X.certificateExtension] at hd
    split at hd
    · cases hd
    · rename_i hq
      have hk := raw.dec hR (Nat.le_of_lt hx) hr raw.zero hq
      obtain ⟨k1, k2, k3, k4, _⟩ := hk
      split at hd <;> cases hd
      · exact ⟨by rintro _ ⟨⟩; exact ⟨k1, k2, trivial⟩, ha.2⟩
      · exact ⟨ha.1, by rintro _ ⟨⟩; exact ⟨k3, k4, trivial⟩⟩

-- @@ Copyright
theorem xsay_copyright (n : Nat) (hR : Rules P Q) : ∃ I, SayX P Q n X.copyright I := by
  have hs := sayx_simple (n := n) hR (sayt_string hR)
  refine ⟨fun c => Q (sanitize c.text), hR.zero, fun m v x hv he => hs.enc m _ x hv he, fun x a b hx hr ha hd => ?_⟩
  simp only [X.copyright, Option.map_eq_some_iff] at hd
  obtain ⟨t, hd, rfl⟩ := hd
  exact hs.dec x _ t hx hr hR.zero hd

-- @@ License
theorem xsay_license (n : Nat) (hR : Rules P Q) : ∃ I, SayX P Q n X.license I := by
  have h : ∃ I, SayX P Q n X.licenseAlias I := @STRUCT
  obtain ⟨I, h⟩ := h
  refine ⟨I, h.zero, fun m v x hv he => ?_, h.dec⟩
  simp only [X.license] at he
  split at he
  · cases he
  · split at he
    · cases he
    · exact h.enc m v x hv he

-- @@ LicenseChoice
theorem xsay_licenses (n : Nat) (hR : Rules P Q) : ∃ I, SayX P Q n X.licenses I := by
  obtain ⟨L, hL⟩ := xsay_license n hR
  obtain ⟨A, hA⟩ := xsay_attachedText n hR
  have hs := sayt_string hR
  have hD : SayX P Q n X.licenseExpressionDetail _ :=
    sayx_struct hR (fun _ => rfl) (Nat.le_of_ble_eq_true rfl)
      (sayf_attr hs (sayf_elem (saye_ptr hA) (sayf_elem (saye_plain (sayx_simple hR hs)) (sayf_nil hR))))
  let A2 : LicenseExpressionDetail → Prop := fun d =>
    Q (sanitize d.licenseIdentifier) ∧ (∀ t ∈ d.text, A t) ∧ Q (sanitize d.url) ∧ True
  have h1 : SayFs P Q n X.licenseExpressionFields
      (fun p => Q (sanitize p.1) ∧ Q (sanitize p.2.1) ∧ Q (sanitize p.2.2.1) ∧ True) :=
    sayf_chardata hR (sayf_attr hs (sayf_attr hs (sayf_nil hR)))
  have h2 : SayFs P Q n X.licenseExpressionDetailedFields
      (fun p => Q (sanitize p.1) ∧ Q (sanitize p.2.1) ∧ Q (sanitize p.2.2.1) ∧ (∀ d ∈ p.2.2.2.1.elems, A2 d) ∧ True) :=
    sayf_attr hs (sayf_attr hs (sayf_attr hs (sayf_elem (saye_list hD) (sayf_nil hR))))
  have s1 := sayx_struct (toP := id) (ofP := id) hR (fun _ => rfl) (Nat.le_of_ble_eq_true rfl) h1
  have s2 := sayx_struct (toP := id) (ofP := id) hR (fun _ => rfl) (Nat.le_of_ble_eq_true rfl) h2
  refine ⟨fun ls => ∀ c ∈ ls, (∀ l ∈ c.license, L l) ∧ Q (sanitize c.expression) ∧
    Q (sanitize (c.acknowledgement.getD "")) ∧ Q (sanitize c.bomRef) ∧
      ∀ d ∈ c.expressionDetails.elems, A2 d,
    none_in, fun m v x hv he => ?_, fun x a b hx hr ha hd => ?_⟩
  · have key : ∀ y, (X.encEach X.licenseChoiceEnc v).map (fun ks => some (Xml.elem m [] ks)) = some (some y) → Wrote Q y := by
      intro y hy
      simp only [Option.map_eq_some_iff, Option.some.injEq] at hy
      obtain ⟨ks, hk, rfl⟩ := hy
      refine wrote_elem hR (by simp) (encEach_wrote _ _ (fun c hc ls hl => ?_) hk)
      obtain ⟨c1, c2, c3, c4, c5⟩ := hv c hc
      simp only [X.licenseChoiceEnc] at hl
      split at hl
      · rename_i l hl'
        split at hl
        · cases hl
        · exact sayx_toList hL (c1 l hl') hl
      · split at hl
        · split at hl
          · exact sayx_toList s1 (a := (c.expression, c.acknowledgement.getD "", c.bomRef, ())) ⟨c2, c3, c4, trivial⟩ hl
          · exact sayx_toList s2 (a := (c.expression, c.acknowledgement.getD "", c.bomRef, c.expressionDetails, ()))
              ⟨c2, c3, c4, c5, trivial⟩ hl
        · cases hl; simp
    cases v with
    | nil => cases he
    | cons c cs => exact key x he
  · refine decEach_keeps _ _ (fun k hk bs hb => ?_) hd
    have hkd := kid_depth' hx hk
    have hkr := hr.kid hk
    cases k with
    | text s => cases hb; simp
    | elem name as ks =>
      simp only [X.licenseChoiceDec] at hb
      have ack : ∀ s, Q (sanitize s) → Q (sanitize ((if s ≠ "" then some s else none).getD "")) := by
        intro s h
        split
        · exact h
        · exact hR.zero
      split at hb
      · rw [Option.map_eq_some_iff] at hb
        obtain ⟨p, hp, rfl⟩ := hb
        have hk := h1.dec hR (Nat.le_of_lt hkd) hkr h1.zero hp
        intro c hc
        simp only [List.mem_singleton] at hc
        subst hc
        exact ⟨not_one, hk.1, ack _ hk.2.1, hk.2.2.1, none_in⟩
      · split at hb
        · rw [Option.map_eq_some_iff] at hb
          obtain ⟨p, hp, rfl⟩ := hb
          have hk := h2.dec hR (Nat.le_of_lt hkd) hkr h2.zero hp
          intro c hc
          simp only [List.mem_singleton] at hc
          subst hc
          exact ⟨not_one, hk.1, ack _ hk.2.1, hk.2.2.1, hk.2.2.2.1⟩
        · split at hb
          · rw [Option.map_eq_some_iff] at hb
            obtain ⟨p, hp, rfl⟩ := hb
            have hk := hL.dec _ _ _ hkd hkr hL.zero hp
            intro c hc
            simp only [List.mem_singleton] at hc
            subst hc
            exact ⟨by rintro _ ⟨⟩; exact hk, hR.zero, hR.zero, hR.zero, none_in⟩
          · cases hb

-- @@ Evidence
theorem xsay_evidence (n : Nat) (hR : Rules P Q) : ∃ I, SayX P Q n X.evidence I := by
  obtain ⟨I, hI⟩ := xsay_evidenceIdentity n hR
  obtain ⟨O, hO⟩ := xsay_evidenceOccurrence n hR
  obtain ⟨C, hC⟩ := xsay_callstack n hR
  obtain ⟨L, hL⟩ := xsay_licenses n hR
  obtain ⟨T, hT⟩ := xsay_copyright n hR
  have h1 : SayFs P Q n X.evidenceFields _ :=
    sayf_elem (saye_list hI) (sayf_elem (saye_nlist hR hO) (sayf_elem (saye_ptr hC)
      (sayf_elem (saye_slice hL hL.zero) (sayf_elem (saye_nlist hR hT) (sayf_nil hR)))))
  have h2 : SayFs P Q n X.evidenceRaw _ := sayf_elem (saye_list hO) (sayf_elem (saye_list hT) (sayf_nil hR))
  let E : Evidence → Prop := fun ev => (∀ i ∈ (X.evidenceIdentities ev).elems, I i) ∧ (∀ a ∈ ev.occurrences.elems, O a) ∧
    (∀ c ∈ ev.callstack, C c) ∧ L ev.licenses.elems ∧ (∀ a ∈ ev.copyright.elems, T a) ∧ True
  have hz : E {} := ⟨none_in, none_in, nofun, hL.zero, none_in, trivial⟩
  refine ⟨E, hz, fun m v x hv he => ?_, fun x a b hx hr ha hd => ?_⟩
  · simp only [X.evidence] at he
    split at he
    · cases he
    · exact h1.enc (Nat.le_of_ble_eq_true rfl) hv he
  · simp only [X.evidence, Option.map_eq_some_iff] at hd
    obtain ⟨st, hd, rfl⟩ := hd
    have hst := decAll_keeps (G := fun k => k.depth < n ∧ Heard P k)
      (I := fun st : List EvidenceIdentity × Evidence => (∀ i ∈ st.1, I i) ∧ E st.2) (fun y a b hy ha hd => ?_) _ _ _
      (fun k hk => ⟨kid_depth' hx hk, hr.kid hk⟩) ⟨none_in, hz⟩ hd
    · split
      · exact ⟨fun i hi => hst.1 i hi, hst.2.2⟩
      · exact hst.2
    · cases y with
      | text s => cases hd; exact ha
      | elem name as ks =>
        obtain ⟨a1, a2, a3, a4, a5, a6, _⟩ := ha
        simp only [X.evidenceStep] at hd
        split at hd
        · rw [Option.map_eq_some_iff] at hd
          obtain ⟨p, hp, rfl⟩ := hd
          refine ⟨fun i hi => ?_, a2, a3, a4, a5, a6, trivial⟩
          rcases List.mem_append.1 hi with hi | hi
          · exact a1 i hi
          · simp only [List.mem_singleton] at hi
            subst hi
            exact hI.dec _ _ _ hy.1 hy.2 hI.zero hp
        · split at hd
          · rw [Option.map_eq_some_iff] at hd
            obtain ⟨p, hp, rfl⟩ := hd
            have hk := h2.dec hR (Nat.le_of_lt hy.1) hy.2 h2.zero hp
            split
            · exact ⟨a1, a2, hk.1, a4, a5, a6, trivial⟩
            · exact ⟨a1, a2, a3, a4, a5, a6, trivial⟩
          · split at hd
            · rw [Option.map_eq_some_iff] at hd
              obtain ⟨p, hp, rfl⟩ := hd
              have hk := hC.dec _ _ _ hy.1 hy.2 hC.zero hp
              split
              · exact ⟨a1, a2, a3, by rintro _ ⟨⟩; exact hk, a5, a6, trivial⟩
              · exact ⟨a1, a2, a3, a4, a5, a6, trivial⟩
            · split at hd
              · rw [Option.map_eq_some_iff] at hd
                obtain ⟨p, hp, rfl⟩ := hd
                have hk := hL.dec _ _ _ hy.1 hy.2 hL.zero hp
                split
                · exact ⟨a1, a2, a3, a4, hk, a6, trivial⟩
                · exact ⟨a1, a2, a3, a4, a5, a6, trivial⟩
              · split at hd
                · rw [Option.map_eq_some_iff] at hd
                  obtain ⟨p, hp, rfl⟩ := hd
                  have hk := h2.dec hR (Nat.le_of_lt hy.1) hy.2 h2.zero hp
                  split
                  · exact ⟨a1, a2, a3, a4, a5, hk.2.1, trivial⟩
                  · exact ⟨a1, a2, a3, a4, a5, a6, trivial⟩
                · cases hd

-- @@ ComponentData
theorem xsay_componentDataFields (n : Nat) (hR : Rules P Q) : ∃ K, SayFs P Q n X.componentDataFields K :=
  @FIELDS

theorem xsay_componentData (n : Nat) (hR : Rules P Q) : ∃ I, SayX P Q n X.componentData I :=
  ex_struct hR (fun _ => rfl) (Nat.le_of_ble_eq_true rfl) (xsay_componentDataFields n hR)

-- @@ MLDatasetChoice
theorem xsay_mlDatasetChoice (n : Nat) (hR : Rules P Q) : ∃ I, SayX P Q n X.mlDatasetChoice I := by
  obtain ⟨K, hK⟩ := xsay_componentDataFields n hR
  have hs := fun m oe => saye_plain (m := m) (oe := oe) (sayx_simple (n := n) hR (sayt_string hR))
  have h1 : SayX P Q n X.mlDatasetChoiceRef _ :=
    sayx_struct hR (fun _ => rfl) (Nat.le_of_ble_eq_true rfl) (sayf_elem (hs _ _) (sayf_nil hR))
  have h2 : SayX P Q n X.componentData _ := sayx_struct hR (fun _ => rfl) (Nat.le_of_ble_eq_true rfl) hK
  have h3 : SayFs P Q n X.mlDatasetChoiceFields _ := sayf_elem (hs _ _) hK
  refine ⟨fun v => Q (sanitize v.ref) ∧ ∀ d ∈ v.componentData, K d.toP, ⟨hR.zero, nofun⟩, fun m v x hv he => ?_,
    fun x a b hx hr ha hd => ?_⟩
  · simp only [X.mlDatasetChoice] at he
    split at he
    · exact h1.enc m _ x ⟨hv.1, trivial⟩ he
    · split at he
      · rename_i d hd; exact h2.enc m _ x (hv.2 d hd) he
      · cases he
  · simp only [X.mlDatasetChoice] at hd
    split at hd
    · cases hd
    · rename_i p hp
      have hk := h3.dec hR (Nat.le_of_lt hx) hr h3.zero hp
      split at hd
      · cases hd; exact ⟨hk.1, ha.2⟩
      · split at hd
        · cases hd; exact ⟨ha.1, by rintro _ ⟨⟩; exact hk.2⟩
        · cases hd; exact ha

-- @@ AsserterChoice
theorem xsay_asserterChoice (n : Nat) (hR : Rules P Q) : ∃ I, SayX P Q n X.asserterChoice I := by
  obtain ⟨O, hO⟩ := xsay_organizationalEntity n hR
  obtain ⟨C, hC⟩ := xsay_organizationalContact n hR
  have hB := sayx_bomReference (n := n) hR
  have raw : SayFs P Q n X.asserterChoiceRaw _ :=
    sayf_elem (saye_ptr hO) (sayf_elem (saye_ptr hC) (sayf_elem (saye_ptr hB) (sayf_nil hR)))
  refine ⟨fun v => (∀ o ∈ v.organization, O o) ∧ (∀ c ∈ v.individual, C c) ∧ ∀ r ∈ v.bomRef, Q (sanitize r.val) ∧ True,
    ⟨nofun, nofun, nofun⟩, fun m v x hv he => ?_, fun x a b hx hr ha hd => ?_⟩
  · simp only [X.asserterChoice] at he
    split at he
    · cases he
    · rename_i o ho _
      exact (sayf_elem (saye_ptr (m := "organization") hO) (sayf_nil hR)).enc (Nat.le_of_ble_eq_true rfl)
        ⟨by rintro _ ⟨⟩; exact hv.1 _ (by assumption), trivial⟩ he
    · rename_i o ho
      exact (sayf_elem (saye_ptr (m := "contact") hC) (sayf_nil hR)).enc (Nat.le_of_ble_eq_true rfl)
        ⟨by rintro _ ⟨⟩; exact hv.2.1 _ (by assumption), trivial⟩ he
    · exact (sayf_elem (saye_ptr (m := "ref") hB) (sayf_nil hR)).enc (Nat.le_of_ble_eq_true rfl)
        ⟨by rintro _ ⟨⟩; exact hv.2.2 _ (by assumption), trivial⟩ he
    · cases he
  · simp only [X.asserterChoice] at hd
    split at hd
    · cases hd
    · rename_i p hp
      have hk := raw.dec hR (Nat.le_of_lt hx) hr raw.zero hp
      cases hd
      exact ⟨hk.1, hk.2.1, hk.2.2.1⟩

-- @@ DataClassification
mutual
theorem spliced_all {known : List String} {stop : String} {G : Xml → Prop}
    (hG : ∀ m as ks, G (.elem m as ks) → ∀ k ∈ ks, G k) : ∀ (xs ys : List Xml), (∀ x ∈ xs, G x) →
    X.spliced known stop xs = some ys → ∀ y ∈ ys, G y
  | [], ys, _, h => by simp only [X.spliced, Option.some.injEq] at h; subst h; simp
  | x :: xs, ys, hx, h => by
    have h1 := spliceOne_all (known := known) (stop := stop) hG x
    have h2 := spliced_all (known := known) (stop := stop) hG xs
    simp only [X.spliced] at h
    split at h
    · rename_i as bs ha hb
      simp only [Option.some.injEq] at h
      subst h
      intro y hy
      rcases List.mem_append.1 hy with hy | hy
      · exact h1 _ (hx x List.mem_cons_self) ha y hy
      · exact h2 _ (fun z hz => hx z (List.mem_cons_of_mem _ hz)) hb y hy
    · cases h
theorem spliceOne_all {known : List String} {stop : String} {G : Xml → Prop}
    (hG : ∀ m as ks, G (.elem m as ks) → ∀ k ∈ ks, G k) : ∀ (x : Xml) (ys : List Xml), G x →
    X.spliceOne known stop x = some ys → ∀ y ∈ ys, G y
  | .text _, ys, _, h => by simp only [X.spliceOne, Option.some.injEq] at h; subst h; simp
  | .elem m as ks, ys, hx, h => by
    have h2 := spliced_all (known := known) (stop := stop) hG ks
    simp only [X.spliceOne] at h
    split at h
    · simp only [Option.some.injEq] at h
      subst h
      intro y hy
      simp only [List.mem_singleton] at hy
      exact hy ▸ hx
    · split at h
      · cases h
      · exact h2 ys (hG _ _ _ hx) h
end

theorem lastAttr_keeps {V : String → Prop} {m : String} : ∀ (as : List (String × String)) (old : String),
    (∀ kv ∈ as, V kv.2) → V old → V (X.lastAttr m as old)
  | [], old, _, h => h
  | kv :: as, old, hp, h => by
    have := lastAttr_keeps (V := V) (m := m) as (if kv.1 = m then kv.2 else old)
      (fun y hy => hp y (List.mem_cons_of_mem _ hy)) (by split; exact hp kv List.mem_cons_self; exact h)
    exact this

theorem urls_keeps (hR : Rules P Q) {m : String} {x : Xml} {us : List String} (hx : Heard P x)
    (h : X.urls m x.kids = some us) : ∀ u ∈ us, Q (sanitize u) := by
  simp only [X.urls, Option.map_eq_some_iff] at h
  obtain ⟨ys, hy, rfl⟩ := h
  intro u hu
  obtain ⟨y, h1, rfl⟩ := List.mem_map.1 hu
  have := spliced_all (G := Heard P) (fun m as ks h k hk => h.kid hk) _ _ (fun k hk => hx.kid hk) hy y h1
  exact hR.text _ (this.text hR)

theorem attrUnlessEmpty_wrote {m s : String} (h : Q (sanitize s)) : ∀ kv ∈ X.attrUnlessEmpty m s, Q kv.2 := by
  unfold X.attrUnlessEmpty
  split
  · simpa using h
  · simp

theorem urlsElem_wrote (hR : Rules P Q) {m : String} {p : PSlice String} (h : ∀ u ∈ p.elems, Q (sanitize u)) :
    ∀ k ∈ X.urlsElem m p, Wrote Q k := by
  have key : ∀ k ∈ [Xml.elem m [] (p.elems.map fun u => .elem "url" [] (textKids (sanitize u)))], Wrote Q k := by
    intro k hk
    simp only [List.mem_singleton] at hk
    subst hk
    refine wrote_elem hR (by simp) fun k hk => ?_
    obtain ⟨u, hu, rfl⟩ := List.mem_map.1 hk
    exact wrote_text (by simp) (h u hu)
  unfold X.urlsElem
  split
  · simp
  · exact key

theorem xsay_dataClassification (n : Nat) (hR : Rules P Q) : ∃ I, SayX P Q n X.dataClassification I := by
  obtain ⟨G, hG⟩ := xsay_dataGovernance n hR
  let D : DataClassification → Prop := fun d => Q (sanitize d.flow) ∧ Q (sanitize d.classification) ∧ Q (sanitize d.name) ∧
    Q (sanitize d.description) ∧ (∀ g ∈ d.governance, G g) ∧ (∀ u ∈ d.source.elems, Q (sanitize u)) ∧
      ∀ u ∈ d.destination.elems, Q (sanitize u)
  refine ⟨D, ⟨hR.zero, hR.zero, hR.zero, hR.zero, nofun, nofun, nofun⟩, fun m v x hv he => ?_, fun x a b hx hr ha hd => ?_⟩
  · obtain ⟨a1, a2, a3, a4, a5, a6, a7⟩ := hv
    simp only [X.dataClassification] at he
    split at he
    · cases he
    · rename_i gs hg
      simp only [Option.some.injEq] at he
      subst he
      refine wrote_elem hR (fun kv hk => ?_) (fun k hk => ?_)
      · rcases List.mem_append.1 hk with hk | hk
        · exact attrUnlessEmpty_wrote a3 kv hk
        · exact attrUnlessEmpty_wrote a4 kv hk
      · rcases List.mem_append.1 hk with hk | hk
        · rcases List.mem_append.1 hk with hk | hk
          · rcases List.mem_append.1 hk with hk | hk
            · split at hk
              · simp only [List.mem_singleton] at hk
                subst hk
                exact wrote_text (attrUnlessEmpty_wrote a1) a2
              · cases hk
            · exact (saye_ptr hG).enc _ _ a5 hg k hk
          · exact urlsElem_wrote hR a6 k hk
        · exact urlsElem_wrote hR a7 k hk
  · simp only [X.dataClassification] at hd
    split at hd
    · cases hd
    · split at hd
      · cases hd
      · rename_i ys hy
        have hys := spliced_all (G := fun k => k.depth < n ∧ Heard P k)
          (fun m as ks h k hk => ⟨kid_depth' h.1 hk, h.2.kid hk⟩) _ _ (fun k hk => ⟨kid_depth' hx hk, hr.kid hk⟩) hy
        have hat : ∀ y : Xml, Heard P y → ∀ kv ∈ y.attrs, Q (sanitize kv.2) := fun y h kv hk => hR.text _ (h.attr hk)
        refine decAll_keeps (G := fun k => k.depth < n ∧ Heard P k) (I := D) (fun y a b hy ha hd => ?_) _ _ _ hys ?_ hd
        · obtain ⟨a1, a2, a3, a4, a5, a6, a7⟩ := ha
          cases y with
          | text s => cases hd; exact ⟨a1, a2, a3, a4, a5, a6, a7⟩
          | elem name as ks =>
            simp only [X.dataClassificationStep] at hd
            split at hd
            · cases hd
              exact ⟨lastAttr_keeps (V := fun s => Q (sanitize s)) as a.flow (hat _ hy.2) a1,
                hR.text _ (hy.2.text hR), a3, a4, a5, a6, a7⟩
            · split at hd
              · rw [Option.map_eq_some_iff] at hd
                obtain ⟨g, hg, rfl⟩ := hd
                exact ⟨a1, a2, a3, a4, by rintro _ ⟨⟩; exact hG.dec _ _ _ hy.1 hy.2 hG.zero hg, a6, a7⟩
              · split at hd
                · rw [Option.map_eq_some_iff] at hd
                  obtain ⟨us, hu, rfl⟩ := hd
                  split
                  · exact ⟨a1, a2, a3, a4, a5, urls_keeps hR hy.2 hu, a7⟩
                  · exact ⟨a1, a2, a3, a4, a5, a6, a7⟩
                · split at hd
                  · rw [Option.map_eq_some_iff] at hd
                    obtain ⟨us, hu, rfl⟩ := hd
                    split
                    · exact ⟨a1, a2, a3, a4, a5, a6, urls_keeps hR hy.2 hu⟩
                    · exact ⟨a1, a2, a3, a4, a5, a6, a7⟩
                  · cases hd; exact ⟨a1, a2, a3, a4, a5, a6, a7⟩
        · obtain ⟨a1, a2, a3, a4, a5, a6, a7⟩ := ha
          exact ⟨a1, a2, lastAttr_keeps (V := fun s => Q (sanitize s)) _ _ (hat _ hr) a3,
            lastAttr_keeps (V := fun s => Q (sanitize s)) _ _ (hat _ hr) a4, a5, a6, a7⟩

-- @@ Definitions
theorem enclosed_wrote {α : Type} (hR : Rules P Q) {m : String} {f : α → Option (List Xml)} {p : PSlice α} {ks : List Xml}
    (h : ∀ a ∈ p.elems, ∀ ls, f a = some ls → ∀ k ∈ ls, Wrote Q k) (he : X.enclosed m f p = some ks) :
    ∀ k ∈ ks, Wrote Q k := by
  have key : (X.encEach f p.elems).map (fun ks => [Xml.elem m [] ks]) = some ks → ∀ k ∈ ks, Wrote Q k := by
    intro h'
    rw [Option.map_eq_some_iff] at h'
    obtain ⟨ls, hl, rfl⟩ := h'
    intro k hk
    simp only [List.mem_singleton] at hk
    subst hk
    exact wrote_elem hR (by simp) (encEach_wrote _ _ h hl)
  cases p with
  | nil => cases he; simp
  | nilSlice => exact key he
  | list l => exact key he

theorem xsay_definitions (n : Nat) (hR : Rules P Q) : ∃ I, SayX P Q n X.definitions I := by
  obtain ⟨S, hS⟩ := xsay_standardDefinition n hR
  obtain ⟨A, hA⟩ := xsay_patent n hR
  obtain ⟨B, hB⟩ := xsay_patentFamily n hR
  let C : PatentChoice → Prop := fun c => (∀ p ∈ c.patent, A p) ∧ ∀ p ∈ c.patentFamily, B p
  let D : Definitions → Prop := fun d => (∀ s ∈ d.standards.elems, S s) ∧ ∀ c ∈ d.patents.elems, C c
  refine ⟨D, ⟨nofun, nofun⟩, fun m v x hv he => ?_, fun x a b hx hr ha hd => ?_⟩
  · simp only [X.definitions] at he
    split at he
    · rename_i ss ps h1 h2
      simp only [Option.some.injEq] at he
      subst he
      refine wrote_elem hR (by simp) fun k hk => ?_
      rcases List.mem_append.1 hk with hk | hk
      · exact enclosed_wrote hR (fun a ha ls hl => sayx_toList hS (hv.1 a ha) hl) h1 k hk
      · refine enclosed_wrote hR (fun a ha ls hl => ?_) h2 k hk
        simp only [X.patentChoiceEnc] at hl
        split at hl
        · exact sayx_toList hA ((hv.2 a ha).1 _ (by assumption)) hl
        · exact sayx_toList hB ((hv.2 a ha).2 _ (by assumption)) hl
        · cases hl; simp
    · cases he
  · refine decAll_keeps (G := fun k => k.depth < n ∧ Heard P k) (I := D) (fun y a b hy ha hd => ?_) _ _ _
      (fun k hk => ⟨kid_depth' hx hk, hr.kid hk⟩) ha hd
    cases y with
    | text s => cases hd; exact ha
    | elem name as ks =>
      simp only [X.definitionsStep] at hd
      split at hd
      · rw [Option.map_eq_some_iff] at hd
        obtain ⟨ss, hs, rfl⟩ := hd
        split
        · refine ⟨decEach_keeps ks ss (fun k hk bs hb => ?_) hs, ha.2⟩
          have hkd := kid_depth' (x := .elem name as ks) hy.1 hk
          have hkr := hy.2.kid (x := .elem name as ks) hk
          cases k with
          | text s => cases hb; simp
          | elem name as ks =>
            simp only [X.standardDec] at hb
            split at hb
            · rw [Option.map_eq_some_iff] at hb
              obtain ⟨p, hp, rfl⟩ := hb
              simpa using hS.dec _ _ _ hkd hkr hS.zero hp
            · cases hb
        · exact ha
      · split at hd
        · rw [Option.map_eq_some_iff] at hd
          obtain ⟨ss, hs, rfl⟩ := hd
          split
          · refine ⟨ha.1, decEach_keeps (I := C) ks ss (fun k hk bs hb => ?_) hs⟩
            have hkd := kid_depth' (x := .elem name as ks) hy.1 hk
            have hkr := hy.2.kid (x := .elem name as ks) hk
            cases k with
            | text s => cases hb; simp
            | elem name as ks =>
              simp only [X.patentChoiceDec] at hb
              split at hb
              · rw [Option.map_eq_some_iff] at hb
                obtain ⟨p, hp, rfl⟩ := hb
                intro c hc
                simp only [List.mem_singleton] at hc
                subst hc
                exact ⟨by rintro _ ⟨⟩; exact hA.dec _ _ _ hkd hkr hA.zero hp, nofun⟩
              · split at hb
                · rw [Option.map_eq_some_iff] at hb
                  obtain ⟨p, hp, rfl⟩ := hb
                  intro c hc
                  simp only [List.mem_singleton] at hc
                  subst hc
                  exact ⟨nofun, by rintro _ ⟨⟩; exact hB.dec _ _ _ hkd hkr hB.zero hp⟩
                · cases hb
          · exact ha
        · cases hd; exact ha

-- @@ Dependency
theorem xsay_dependency (n : Nat) (hR : Rules P Q) : ∃ I, SayX P Q n X.dependency I :=
  ⟨_, sayx_fresh (sayx_struct hR (fun _ => rfl) (Nat.le_of_ble_eq_true rfl)
    (sayf_attr (sayt_string hR) (sayf_elem (saye_list (sayx_dependencyRef hR))
      (sayf_elem (saye_list (sayx_dependencyRef hR)) (sayf_nil hR)))))⟩

-- @@ EnvironmentVariableChoice
theorem xsay_environmentVariables (n : Nat) (hR : Rules P Q) : ∃ I, SayX P Q n X.environmentVariables I := by
  obtain ⟨L, hL⟩ := xsay_property n hR
  have hs := sayx_simple (n := n) hR (sayt_string hR)
  refine ⟨fun ls => ∀ c ∈ ls, (∀ l ∈ c.property, L l) ∧ Q (sanitize c.value), none_in, fun m v x hv he => ?_,
    fun x a b hx hr ha hd => ?_⟩
  · have key : ∀ y, (X.encEach X.environmentVariableEnc v).map (fun ks => some (Xml.elem m [] ks)) = some (some y) →
        Wrote Q y := by
      intro y hy
      simp only [Option.map_eq_some_iff, Option.some.injEq] at hy
      obtain ⟨ks, hk, rfl⟩ := hy
      refine wrote_elem hR (by simp) (encEach_wrote _ _ (fun c hc ls hl => ?_) hk)
      simp only [X.environmentVariableEnc] at hl
      split at hl
      · rename_i l hl'
        split at hl
        · cases hl
        · exact sayx_toList hL ((hv c hc).1 l hl') hl
      · split at hl
        · exact sayx_toList hs (hv c hc).2 hl
        · cases hl; simp
    cases v with
    | nil => cases he
    | cons c cs => exact key x he
  · refine decEach_keeps _ _ (fun k hk bs hb => ?_) hd
    have hkd := kid_depth' hx hk
    have hkr := hr.kid hk
    cases k with
    | text s => cases hb; simp
    | elem name as ks =>
      simp only [X.environmentVariableDec] at hb
      split at hb
      · rw [Option.map_eq_some_iff] at hb
        obtain ⟨p, hp, rfl⟩ := hb
        have hk := hs.dec _ _ _ hkd hkr hR.zero hp
        intro c hc
        simp only [List.mem_singleton] at hc
        subst hc
        exact ⟨nofun, hk⟩
      · split at hb
        · rw [Option.map_eq_some_iff] at hb
          obtain ⟨p, hp, rfl⟩ := hb
          have hk := hL.dec _ _ _ hkd hkr hL.zero hp
          intro c hc
          simp only [List.mem_singleton] at hc
          subst hc
          exact ⟨by rintro _ ⟨⟩; exact hk, hR.zero⟩
        · cases hb

-- @@ Pedigree
theorem xsay_pedigreeWith (C : XCodec Component) (n : Nat) (hR : Rules P Q) (hC : ∃ I, SayX P Q n C I) :
    ∃ I, SayX P Q n (X.pedigree C) I :=
  @STRUCT

-- @@ Component
theorem xsay_componentWith (C : XCodec Component) (n : Nat) (hR : Rules P Q) (hC : ∃ I, SayX P Q n C I) :
    ∃ I, SayX P Q (n + 1) (X.componentWith C) I :=
  have hP := xsay_pedigreeWith C n hR hC
  @STRUCT'

theorem xsay_component (n : Nat) (hR : Rules P Q) : ∃ I, SayX P Q n X.component I := by
  induction n with
  | zero =>
    obtain ⟨I, h⟩ := xsay_componentWith (X.bottom {}) 0 hR
      ⟨fun x => x = {}, ⟨rfl, fun m a x _ he => (nomatch he), fun x a b hx => (by omega)⟩⟩
    refine ⟨fun x => x = X.component.zero, rfl, fun m a x ha he => ?_, fun x a b hx => by omega⟩
    subst ha
    have hh : Component.height {} = 1 := rfl
    have e : X.component.enc m {} = (X.componentWith (X.bottom {})).enc m {} := by
      show (X.componentN (Component.height {})).enc m {} = _
      rw [hh]
      rfl
    exact h.enc m {} x h.zero (e ▸ he)
  | succ n ih =>
    obtain ⟨I, h⟩ := xsay_componentWith _ n hR ih
    exact ⟨I, h.zero, fun m a x ha he => h.enc m a x ha (by rw [← xcomponent_enc]; exact he),
      fun x a b hx hr ha hd => h.dec x a b hx hr ha (by rw [← xcomponent_dec]; exact hd)⟩

-- @@ Service
theorem xsay_serviceWith (C : XCodec Service) (n : Nat) (hR : Rules P Q) (hC : ∃ I, SayX P Q n C I) :
    ∃ I, SayX P Q (n + 1) (X.serviceWith C) I :=
  @STRUCT'

theorem xsay_service (n : Nat) (hR : Rules P Q) : ∃ I, SayX P Q n X.service I := by
  induction n with
  | zero =>
    obtain ⟨I, h⟩ := xsay_serviceWith (X.bottom {}) 0 hR
      ⟨fun x => x = {}, ⟨rfl, fun m a x _ he => (nomatch he), fun x a b hx => (by omega)⟩⟩
    refine ⟨fun x => x = X.service.zero, rfl, fun m a x ha he => ?_, fun x a b hx => by omega⟩
    subst ha
    rw [xservice_enc] at he
    exact h.enc m _ x h.zero he
  | succ n ih =>
    obtain ⟨I, h⟩ := xsay_serviceWith _ n hR ih
    exact ⟨I, h.zero, fun m a x ha he => h.enc m a x ha (by rw [← xservice_enc]; exact he),
      fun x a b hx hr ha hd => h.dec x a b hx hr ha (by rw [← xservice_dec]; exact hd)⟩

-- @@ ToolsChoice
theorem xsay_toolsChoice (n : Nat) (hR : Rules P Q) : ∃ I, SayX P Q n X.toolsChoice I := by
  obtain ⟨T, hT⟩ := xsay_tool n hR
  obtain ⟨C, hC⟩ := xsay_component n hR
  obtain ⟨S, hS⟩ := xsay_service n hR
  have h1 : SayFs P Q n X.toolsChoiceFields _ :=
    sayf_elem (saye_list hT) (sayf_elem (saye_nlist hR hC) (sayf_elem (saye_nlist hR hS) (sayf_nil hR)))
  have h2 : SayFs P Q n X.toolsChoiceRaw _ := sayf_elem (saye_list hC) (sayf_elem (saye_list hS) (sayf_nil hR))
  refine ⟨fun v => (∀ a ∈ v.tools.elems, T a) ∧ (∀ a ∈ v.components.elems, C a) ∧ (∀ a ∈ v.services.elems, S a),
    ⟨none_in, none_in, none_in⟩, fun m v x hv he => ?_, fun x a b hx hr ha hd => ?_⟩
  · simp only [X.toolsChoice] at he
    split at he
    · cases he
    · split at he
      · exact h1.enc (Nat.le_of_ble_eq_true rfl) ⟨hv.1, none_in, none_in, trivial⟩ he
      · split at he
        · exact h1.enc (Nat.le_of_ble_eq_true rfl) ⟨none_in, hv.2.1, hv.2.2, trivial⟩ he
        · cases he
  · simp only [X.toolsChoice] at hd
    split at hd
    · cases hd
    · rename_i ts cs ss hst
      have hk := decAll_keeps (G := fun k => k.depth < n ∧ Heard P k)
        (I := fun st : List Tool × List Component × List Service =>
          (∀ a ∈ st.1, T a) ∧ (∀ a ∈ st.2.1, C a) ∧ (∀ a ∈ st.2.2, S a)) (fun y a b hy ha hd => ?_) _ _ _
        (fun k hk => ⟨kid_depth' hx hk, hr.kid hk⟩) ⟨none_in, none_in, none_in⟩ hst
      · split at hd
        · cases hd
        · split at hd
          · cases hd
            simpa only [ofList_elems] using hk
          · cases hd; exact ha
      · cases y with
        | text s => cases hd; exact ha
        | elem name as ks =>
          simp only [X.toolsChoiceStep] at hd
          split at hd
          · rw [Option.map_eq_some_iff] at hd
            obtain ⟨p, hp, rfl⟩ := hd
            refine ⟨fun i hi => ?_, ha.2⟩
            rcases List.mem_append.1 hi with hi | hi
            · exact ha.1 i hi
            · simp only [List.mem_singleton] at hi
              subst hi
              exact hT.dec _ _ _ hy.1 hy.2 hT.zero hp
          · split at hd
            · rw [Option.map_eq_some_iff] at hd
              obtain ⟨p, hp, rfl⟩ := hd
              have hk := h2.dec hR (Nat.le_of_lt hy.1) hy.2 h2.zero hp
              split
              · exact ⟨ha.1, hk.1, ha.2.2⟩
              · exact ha
            · split at hd
              · rw [Option.map_eq_some_iff] at hd
                obtain ⟨p, hp, rfl⟩ := hd
                have hk := h2.dec hR (Nat.le_of_lt hy.1) hy.2 h2.zero hp
                split
                · exact ⟨ha.1, ha.2.1, hk.2.1⟩
                · exact ha
              · cases hd

-- @@ BOM
theorem xsay_bomTail (n : Nat) (hR : Rules P Q) : ∃ F, X.bomFields =
    .skip {} (.attr "xmlns" false XText.string (.skip "" (.skip "" (.skip 0 F)))) ∧ ∃ K, SayFs P Q n F K :=
  ⟨_, rfl, @TAILFIELDS⟩

/-- The invariant of a BOM has nothing to do with the name of the root element and the version. -/
theorem xsay_bom (n : Nat) (hR : Rules P Q) : ∃ I : BOM → Prop, SayX P Q n X.bom I ∧
    ∀ (b : BOM) (m : XMLName) (v : Int), I b → I { b with xmlName := m, specVersion := v } := by
  obtain ⟨F, hF, K, h⟩ := xsay_bomTail n hR
  have h1 : SayFs P Q n X.bomFields (fun b => Q (sanitize b.2.1) ∧ K b.2.2.2.2.2) :=
    hF ▸ sayf_skip (sayf_attr (sayt_string hR) (sayf_skip (sayf_skip (sayf_skip h))))
  exact ⟨_, sayx_struct hR (fun _ => rfl) (Nat.le_of_ble_eq_true rfl) h1, fun b m v hb => hb⟩

