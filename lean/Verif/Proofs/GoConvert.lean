import Verif.Proofs.Fields
import Verif.Model.GoConvert
import Verif.Proofs.Convert

/-!
# The programs of `Model/GoConvert` and the functions of `Model/Convert`
-/

namespace Verif.Heap.Go
open Verif

theorem convertOrganizationalContact_refines (sv : Int) : Refines (convertOrganizationalContact sv)
    OrganizationalContact.tree (Verif.convertOrganizationalContact sv) :=
  Refines.ifThen _ (OrganizationalContact.at_bomRef.lift (.setStr ""))

theorem convertOrganizationalEntity_refines (sv : Int) : Refines (convertOrganizationalEntity sv)
    OrganizationalEntity.tree (Verif.convertOrganizationalEntity sv) :=
  (Refines.ifThen (sv < SpecVersion1_5)
    ((OrganizationalEntity.at_bomRef.lift (.setStr "")).seq
      (OrganizationalEntity.at_contact.lift (convertOrganizationalContact_refines sv).elems))).seq
  (Refines.ifThen (sv < SpecVersion1_6) (OrganizationalEntity.at_address.lift .setNone))

theorem ite_with {α β : Type} {c : Prop} [Decidable c] (f : α → β) (a b : α) :
    f (if c then a else b) = if c then f a else f b := by split <;> rfl

theorem convertComposition_refines (sv : Int) : Refines (convertComposition sv)
    Composition.tree (Verif.convertComposition sv) :=
  ((Refines.ifThen (sv < SpecVersion1_5)
    ((Composition.at_bomRef.lift (.setStr "")).seq (Composition.at_vulnerabilities.lift .setNil))).seq
  (Composition.at_aggregate.lift (.ifStr (fun a => !supportsCompositionAggregate sv a)
    (.setStr CompositionAggregateUnknown)))).congr fun a => by
    simp only [Verif.convertComposition]
    split <;> split <;> rfl

theorem convertDataClassifications_refines (sv : Int) : Refines (convertDataClassifications sv)
    (Tree.pslice DataClassification.tree) (Verif.convertDataClassifications sv) :=
  (Refines.slc (Refines.ifThen (sv < SpecVersion1_6) (Refines.forElems
    ((DataClassification.at_name.lift (.setStr "")).seq
    ((DataClassification.at_description.lift (.setStr "")).seq
    ((DataClassification.at_governance.lift .setNone).seq
    ((DataClassification.at_source.lift .setNil).seq
    (DataClassification.at_destination.lift .setNil)))))))).congr fun a => by
    unfold Verif.convertDataClassifications
    cases a <;> simp only [mapSlc] <;> split <;> rfl

theorem convertExternalReference_refines (sv : Int) : Refines (convertExternalReference sv)
    ExternalReference.tree (Verif.convertExternalReference sv) :=
  ((ExternalReference.at_type.lift (.ifStr (fun t => !supportsExternalReferenceType sv t) (.setStr ERTypeOther))).seq
  ((Refines.ifThen (sv < SpecVersion1_3) (ExternalReference.at_hashes.lift .setNil)).seq
  (Refines.ifThen (sv < SpecVersion1_7) (ExternalReference.at_properties.lift .setNil)))).congr fun a => by
    simp only [Verif.convertExternalReference]
    cases supportsExternalReferenceType sv a.type <;> rfl

theorem convertExternalReferences_refines (sv : Int) : Refines (convertExternalReferences sv)
    (Tree.pslice ExternalReference.tree) (Verif.convertExternalReferences sv) :=
  (convertExternalReference_refines sv).elems

/-- The string in the field of a struct. -/
def fieldStr (i : Nat) : Tree → String
  | .agg ts => match ts[i]? with
    | some (.scalar (.str s)) => s
    | _ => ""
  | _ => ""

/-- Whether the field of a struct is nil. -/
def fieldNil (i : Nat) : Tree → Bool
  | .agg ts => match ts[i]? with
    | some .nilPtr => true
    | _ => false
  | _ => false

theorem ofSlc_orNil {α : Type} (xs : List α) : ofSlc (orNil xs) = storeOrNil xs := by
  unfold orNil storeOrNil
  split <;> rfl

theorem convertHashes_refines (sv : Int) : Refines (convertHashes sv) (Tree.pslice Hash.tree)
    (Verif.convertHashes sv) :=
  (Refines.slc (Refines.collect (m := fun _ => pure ()) (b := fun h => supportsHashAlgorithm sv h.algorithm)
    (fun t => supportsHashAlgorithm sv (fieldStr F.Hash.algorithm t)) (fun _ => rfl) Refines.skip
    (fun a p h fp ho => bind_run (readStr_field Hash.at_algorithm ho)))).congr fun a => by
    cases a with
    | nil => rfl
    | nilSlice => rfl
    | list xs =>
      simp only [Verif.convertHashes, mapSlc, Option.getD_some, List.map_id', PSlice.elems, ofSlc_orNil]

theorem license_refines1_0 : Refines (fun l => ifNotNil l do
    let id ← deref l fun l => readStr (l.field F.License.id)
    let name ← deref l fun l => readStr (l.field F.License.name)
    if id = "" ∧ name = "" then setNil l
    else do
      deref l fun l => setNil (l.field F.License.text)
      deref l fun l => setStr (l.field F.License.url) "") (Tree.opt License.tree)
    (fun o => match o with
      | none => none
      | some l => if l.id = "" ∧ l.name = "" then none else some { l with text := none, url := "" }) := by
  intro l a
  unfold Heap.ifNotNil
  cases a with
  | none => exact Ref.readFirst (fun _ _ ho => readNil_nil ho) (Ref.skip l _)
  | some a =>
    refine Ref.readFirst (fun _ _ ho => readNil_ptr ho) ?_
    refine Ref.readFirst (a := a.id) (fun _ _ ho => deref_read ho fun p fq ho => readStr_field License.at_id ho) ?_
    refine Ref.readFirst (a := a.name) (fun _ _ ho => deref_read ho fun p fq ho => readStr_field License.at_name ho) ?_
    by_cases h : a.id = "" ∧ a.name = ""
    · simp only [if_pos h]
      exact Ref.write fun _ => .nilPtr
    · simp only [if_neg h]
      exact ((License.at_text.lift .setNone).deref.seq (License.at_url.lift (.setStr "")).deref) l a

theorem convertLicense1_0_refines : Refines convertLicense1_0 LicenseChoice.tree Verif.convertLicense1_0 :=
  ((LicenseChoice.at_license.lift license_refines1_0).seq
    (LicenseChoice.at_expression.lift (.setStr ""))).congr fun a => by
    simp only [Verif.convertLicense1_0]
    rcases a with ⟨_ | l⟩
    · rfl
    · simp only
      split <;> rfl

theorem convertLicenses1_0_refines : Refines convertLicenses1_0 (slcTree LicenseChoice.tree)
    (fun s => orNil (((s.getD []).map Verif.convertLicense1_0).filter fun c => c.license.isSome)) :=
  Refines.collect (b := fun (c : LicenseChoice) => c.license.isSome)
    (test := fun choice => do pure (!(← readNil (choice.field F.LicenseChoice.license))))
    (fun t => !fieldNil F.LicenseChoice.license t)
    (fun a => by rcases a with ⟨_ | l⟩ <;> rfl) convertLicense1_0_refines
    (fun a p h fp ho => by
      rw [show a.license.isSome = !a.license.isNone by cases a.license <;> rfl]
      exact bind_run (readNil_field LicenseChoice.at_license ho))

theorem convertLicense1_4_refines : Refines convertLicense1_4 LicenseChoice.tree Verif.convertLicense1_4 :=
  (LicenseChoice.at_license.lift (Refines.ifNotNil
    ((License.at_bomRef.lift (.setStr "")).deref.seq
    ((License.at_licensing.lift .setNone).deref.seq
    (License.at_properties.lift .setNil).deref))))

theorem convertParty_refines (sv : Int) : Refines (convertParty sv) (Tree.opt OrganizationalEntityOrContact.tree)
    (Option.map (Verif.convertParty sv)) :=
  Refines.ifNotNil (OrganizationalEntityOrContact.at_organization.lift
    (convertOrganizationalEntity_refines sv).opt).deref

theorem convertLicense1_5_refines (sv : Int) : Refines (convertLicense1_5 sv) LicenseChoice.tree
    (Verif.convertLicense1_5 sv) :=
  (LicenseChoice.at_license.lift (Refines.ifNotNil
    ((License.at_acknowledgement.lift (.setStr "")).deref.seq
    (License.at_licensing.lift (Refines.ifNotNil
      ((Licensing.at_licensor.lift (convertParty_refines sv)).deref.seq
      ((Licensing.at_licensee.lift (convertParty_refines sv)).deref.seq
      (Licensing.at_purchaser.lift (convertParty_refines sv)).deref)))).deref)))

theorem convertLicense1_6_refines : Refines convertLicense1_6 LicenseChoice.tree Verif.convertLicense1_6 :=
  (LicenseChoice.at_expressionDetails.lift .setNil).seq
  ((LicenseChoice.at_licensing.lift .setNone).seq (LicenseChoice.at_properties.lift .setNil))

theorem convertLicenses_refines (sv : Int) : Refines (convertLicenses sv) (Tree.pslice LicenseChoice.tree)
    (Verif.convertLicenses sv) :=
  (Refines.slc ((Refines.ifThen (sv < SpecVersion1_1) convertLicenses1_0_refines).seq
    ((Refines.ifThen (sv < SpecVersion1_5) convertLicense1_4_refines.forElems).seq
    ((Refines.ifThen (sv < SpecVersion1_6) (convertLicense1_5_refines sv).forElems).seq
    (Refines.ifThen (sv < SpecVersion1_7) convertLicense1_6_refines.forElems))))).congr fun a => by
    have e : ∀ (c : Prop) [Decidable c] (f : LicenseChoice → LicenseChoice) (s : Option (List LicenseChoice)),
        ofSlc (if c then s.map (List.map f) else s) = if c then (ofSlc s).map f else ofSlc s := by
      intro c _ f s
      split
      · cases s <;> rfl
      · rfl
    have e1 : ∀ s : Option (List LicenseChoice), ofSlc (if sv < SpecVersion1_1 then
        orNil (((s.getD []).map Verif.convertLicense1_0).filter fun c => c.license.isSome) else s) =
        if sv < SpecVersion1_1 then Verif.convertLicenses1_0 (ofSlc s) else ofSlc s := by
      intro s
      split
      · cases s with
        | none => rfl
        | some xs =>
          rw [ofSlc_orNil]
          rfl
      · rfl
    cases a with
    | nil =>
      simp only [Verif.convertLicenses, mapSlc, Verif.convertLicenses1_0, ite_self, PSlice.map]
    | nilSlice => simp only [Verif.convertLicenses, mapSlc, e, e1]; rfl
    | list xs => simp only [Verif.convertLicenses, mapSlc, e, e1]; rfl

theorem clearConcludedValue_refines : Refines clearConcludedValue (Tree.opt EvidenceIdentityChoice.tree)
    Verif.clearConcludedValue :=
  Refines.ifNotNil (EvidenceIdentityChoice.at_identity.lift
    (Refines.ifNotNil (EvidenceIdentity.at_concludedValue.lift (.setStr "")).deref)).deref

theorem clearOccurrence_refines : Refines clearOccurrence EvidenceOccurrence.tree Verif.clearOccurrence :=
  (EvidenceOccurrence.at_line.lift .setNone).seq
  ((EvidenceOccurrence.at_offset.lift .setNone).seq
  ((EvidenceOccurrence.at_symbol.lift (.setStr "")).seq
  (EvidenceOccurrence.at_additionalContext.lift (.setStr ""))))

theorem firstIdentity_refines : Refines firstIdentity (Tree.opt EvidenceIdentityChoice.tree)
    Verif.firstIdentity := by
  intro l a
  unfold firstIdentity Heap.ifNotNil
  cases a with
  | none => exact Ref.readFirst (fun _ _ ho => readNil_nil ho) (Ref.skip l _)
  | some ch =>
  refine Ref.readFirst (fun _ _ ho => readNil_ptr ho) ?_
  refine Ref.readFirst (a := ch.identities.isNil)
    (fun _ _ ho => deref_read ho fun p fq ho => readNil_slice EvidenceIdentityChoice.at_identities ho) ?_
  rcases ch with ⟨i, ids⟩
  cases ids with
  | nil => exact Ref.skip l _
  | nilSlice =>
    refine Ref.readFirst (a := .nilSlice) (fun h fp ho => deref_read ho fun p fq ho => ?_)
      (Ref.write fun _ => .nilPtr)
    obtain ⟨fi, ho⟩ := OwnAt.field (i := F.EvidenceIdentityChoice.identities) ho rfl
    refine deref_read ho fun p fq ho => ?_
    obtain ⟨v, hl, ow, -⟩ := ho
    cases ow
    exact read_run hl
  | list xs =>
    intro h fp ho
    have ho' := ho
    obtain ⟨v, hl, ow, hn⟩ := ho
    cases ow with
    | ptr hc ow =>
    rename_i c v fp
    cases ow with
    | agg ow =>
    cases ow with
    | cons ow1 ow =>
    rename_i v1 vs fp1 fp2
    cases ow with
    | cons ow2 ow =>
    rename_i v2 vs fp2 fp3
    cases ow
    cases ow2 with
    | ptr hd ow2 =>
    rename_i d v2 fp2
    cases ow2 with
    | slice ha hlen ow2 =>
    rename_i a n vs fp2
    have hids : deref l (fun i => deref (i.field F.EvidenceIdentityChoice.identities) read) h =
        some (.slice a n, h) := by
      unfold deref
      rw [bind_run (read_run hl)]
      show (read ⟨c, [F.EvidenceIdentityChoice.identities]⟩ >>= _) h = _
      rw [bind_run (read_run (load_of hc rfl))]
      exact read_run (load_of hd (Val.get_nil _))
    have hlt := load_lt hl
    cases xs with
    | nil =>
      cases ow2
      subst hlen
      obtain ⟨h', h1, h2, h3, h4⟩ := write_owned (k := []) (w := .nilPtr) (t' := .nilPtr) (fp' := []) ho' .nilPtr
        (by simp) (by simp) (by simp)
      rw [List.append_nil] at h1
      exact ⟨h', [], (bind_run hids).trans h1, h2, h3, h4⟩
    | cons x xs =>
      cases ow2 with
      | cons ow2 ow3 =>
      rename_i vx vs fx fxs
      obtain ⟨hn0, hn⟩ := List.nodup_cons.1 hn
      have hfx : ∀ c ∈ fx, c < h.length := ow2.lt
      have hsub : fx.Sublist (c :: (fp1 ++ (d :: a :: (fx ++ fxs) ++ []))) := by
        refine .cons _ (List.Sublist.trans ?_ (List.sublist_append_right ..))
        rw [List.append_nil]
        exact .cons _ (.cons _ (List.sublist_append_left ..))
      obtain ⟨h', h1, h2, h3, h4⟩ := write_owned (k := [vx, .agg [.ptr ⟨h.length, []⟩, .nilPtr]])
        (w := .ptr ⟨h.length + 1, []⟩) (t' := .ptr (.agg [.ptr x.tree, .nilPtr]))
        (fp' := (h.length + 1) :: (h.length :: fx)) ho'
        (.ptr (v := .agg [.ptr ⟨h.length, []⟩, .nilPtr]) (by simp) (.agg (by
          have := OwnAll.cons (h := h ++ [vx, .agg [.ptr ⟨h.length, []⟩, .nilPtr]])
            (Own.ptr (v := vx) (c := h.length) (t := x.tree) (fp := fx) (by simp)
              (ow2.frame fun c hc => by rw [List.getElem?_append_left (hfx c hc)])) (.cons .nilPtr .nil)
          simpa using this)))
        (by
          refine List.nodup_cons.2 ⟨?_, List.nodup_cons.2 ⟨?_, hn.sublist hsub⟩⟩
          · intro h
            rcases List.mem_cons.1 h with h | h
            · omega
            · have := hfx _ h; omega
          · intro h
            have := hfx _ h; omega)
        (by
          intro h
          rcases List.mem_cons.1 h with h | h
          · omega
          · rcases List.mem_cons.1 h with h | h
            · omega
            · exact hn0 (hsub.subset h))
        (by
          intro c hc
          rcases List.mem_cons.1 hc with rfl | hc
          · exact .inr (by omega)
          · rcases List.mem_cons.1 hc with rfl | hc
            · exact .inr (by omega)
            · exact .inl (hsub.subset hc))
      refine ⟨h', _, (bind_run hids).trans ?_, h2, h3, h4⟩
      rw [hlen]
      show (read ⟨a, [0]⟩ >>= _) h = _
      rw [bind_run (read_run (load_of (v := vx) ha (by
        show (Val.agg (vx :: vs)).get [0] = _
        rw [Val.get, List.getElem?_cons_zero]
        exact Val.get_nil _)))]
      rw [bind_run (m := alloc vx) rfl]
      rw [bind_run (m := alloc _) rfl]
      simp only [List.length_append, List.length_cons, List.length_nil, Nat.zero_add, List.append_assoc,
        List.cons_append, List.nil_append]
      exact h1

theorem evidence_refines (sv : Int) : Refines (fun l => ifNotNil l do
    if sv < SpecVersion1_3 then
      setNil l
    else if sv < SpecVersion1_5 then do
      deref l fun e => setNil (e.field F.Evidence.identity)
      deref l fun e => setNil (e.field F.Evidence.occurrences)
      deref l fun e => setNil (e.field F.Evidence.callstack)
    else do
      ifThen (sv < SpecVersion1_6) do
        deref l fun e => firstIdentity (e.field F.Evidence.identity)
        deref l fun e => clearConcludedValue (e.field F.Evidence.identity)
        deref l fun e => whenElems (e.field F.Evidence.occurrences) clearOccurrence
      deref l fun e => convertLicenses sv (e.field F.Evidence.licenses)) (Tree.opt Evidence.tree)
    (Verif.convertEvidence sv) := by
  intro l a
  unfold Heap.ifNotNil
  cases a with
  | none => exact Ref.readFirst (fun _ _ ho => readNil_nil ho) (Ref.skip l _)
  | some e =>
    refine Ref.readFirst (fun _ _ ho => readNil_ptr ho) ?_
    simp only [Verif.convertEvidence, Bool.false_eq_true, if_false]
    by_cases h3 : sv < SpecVersion1_3
    · simp only [if_pos h3]
      exact Ref.write fun _ => .nilPtr
    · simp only [if_neg h3]
      by_cases h5 : sv < SpecVersion1_5
      · simp only [if_pos h5]
        exact ((Evidence.at_identity.lift .setNone).deref.seq
          ((Evidence.at_occurrences.lift .setNil).deref.seq (Evidence.at_callstack.lift .setNone).deref)) l e
      · simp only [if_neg h5]
        exact ((Refines.ifThen (sv < SpecVersion1_6)
          ((Evidence.at_identity.lift firstIdentity_refines).deref.seq
          ((Evidence.at_identity.lift clearConcludedValue_refines).deref.seq
          (Evidence.at_occurrences.lift clearOccurrence_refines.elems).deref))).seq
          (Evidence.at_licenses.lift (convertLicenses_refines sv)).deref) l e

theorem convertEvidence_refines (sv : Int) : Refines (convertEvidence sv) Component.tree
    (fun c => { c with evidence := Verif.convertEvidence sv c.evidence }) :=
  Component.at_evidence.lift (evidence_refines sv)

theorem convertModelCard_refines (sv : Int) : Refines (convertModelCard sv) Component.tree
    (fun c => { c with modelCard := Verif.convertModelCard sv c.modelCard }) :=
  Component.at_modelCard.lift (Refines.ifNotNil (Refines.ifThen (sv < SpecVersion1_6)
    (MLModelCard.at_considerations.lift (Refines.ifNotNil
      (MLModelCardConsiderations.at_environmentalConsiderations.lift .setNone).deref)).deref))

theorem convertCryptoProperties_refines (sv : Int) : Refines (convertCryptoProperties sv) CryptoProperties.tree
    (fun cp => { cp with
      algorithmProperties := cp.algorithmProperties.map (convertAlgorithmProperties sv)
      protocolProperties := cp.protocolProperties.map (convertProtocolProperties sv)
      certificateProperties := cp.certificateProperties.map (convertCertificateProperties sv)
      relatedCryptoMaterialProperties :=
        cp.relatedCryptoMaterialProperties.map (convertRelatedCryptoMaterial sv) }) :=
  ((CryptoProperties.at_algorithmProperties.lift (Refines.ifNotNil
    ((Refines.ifThen (sv < SpecVersion1_7)
      ((CryptoAlgorithmProperties.at_algorithmFamily.lift (.setStr "")).deref.seq
      (CryptoAlgorithmProperties.at_ellipticCurve.lift (.setStr "")).deref)).seq
    (CryptoAlgorithmProperties.at_primitive.lift (.ifStr (fun t => !supportsCryptoPrimitive sv t)
      (.setStr ""))).deref))).seq
  ((CryptoProperties.at_protocolProperties.lift (Refines.ifNotNil
    (CryptoProtocolProperties.at_type.lift (.ifStr (fun t => !supportsCryptoProtocolType sv t) (.setStr ""))).deref)).seq
  ((CryptoProperties.at_certificateProperties.lift (Refines.ifNotNil (Refines.ifThen (sv < SpecVersion1_7)
    ((CertificateProperties.at_serialNumber.lift (.setStr "")).deref.seq
    ((CertificateProperties.at_certificateFileExtension.lift (.setStr "")).deref.seq
    ((CertificateProperties.at_fingerprint.lift .setNone).deref.seq
    ((CertificateProperties.at_certificateState.lift .setNil).deref.seq
    ((CertificateProperties.at_certificateExtensions.lift .setNil).deref.seq
    ((CertificateProperties.at_relatedCryptographicAssets.lift .setNil).deref.seq
    ((CertificateProperties.at_creationDate.lift (.setStr "")).deref.seq
    ((CertificateProperties.at_activationDate.lift (.setStr "")).deref.seq
    ((CertificateProperties.at_deactivationDate.lift (.setStr "")).deref.seq
    ((CertificateProperties.at_revocationDate.lift (.setStr "")).deref.seq
    (CertificateProperties.at_destructionDate.lift (.setStr "")).deref))))))))))))).seq
  ((CryptoProperties.at_relatedCryptoMaterialProperties.lift (Refines.ifNotNil (Refines.ifThen (sv < SpecVersion1_7)
    ((RelatedCryptoMaterialProperties.at_fingerprint.lift .setNone).deref.seq
    (RelatedCryptoMaterialProperties.at_relatedCryptographicAssets.lift .setNil).deref)))).seq
  (CryptoProperties.at_protocolProperties.lift (Refines.ifNotNil
    ((Refines.ifThen (sv < SpecVersion1_7)
      (CryptoProtocolProperties.at_relatedCryptographicAssets.lift .setNil).deref).seq
    (CryptoProtocolProperties.at_cipherSuites.lift (Refines.elems (Refines.ifThen (sv < SpecVersion1_7)
      ((CipherSuite.at_tlsGroups.lift .setNil).seq (CipherSuite.at_tlsSignatureSchemes.lift .setNil))))).deref))))))).congr
  fun cp => by
    rcases cp with ⟨_, a, c, r, p, _⟩
    simp only [Option.map_map, CryptoProperties.mk.injEq, true_and, and_true]
    refine ⟨?_, ?_, ?_, ?_⟩ <;> congr 1 <;> funext x
    · simp only [convertAlgorithmProperties]
      split <;> split <;> rfl
    · simp only [convertProtocolProperties, Function.comp]
      cases supportsCryptoProtocolType sv x.type <;> rfl

theorem componentConverter_refines (sv : Int) : Refines (componentConverter sv) Component.tree
    (Verif.componentConverter sv) :=
  ((Refines.ifThen (sv < SpecVersion1_1)
    (((Component.at_bomRef.lift (.setStr "")).seq
    ((Component.at_externalReferences.lift .setNil).seq
    ((Component.at_modified.lift (.ifNil (.newBool false))).seq
    (Component.at_pedigree.lift .setNone)))).congr
      (g := fun (c : Component) => { c with
        bomRef := "", externalReferences := .nil,
        modified := (match c.modified with | none => some false | some m => some m),
        pedigree := none })
      fun c => by
        cases c.modified <;> rfl)).seq
  ((Refines.ifThen (sv < SpecVersion1_2)
    (((Component.at_author.lift (.setStr "")).seq
    ((Component.at_mimeType.lift (.setStr "")).seq
    ((Component.at_pedigree.lift (.ifNotNil (Pedigree.at_patches.lift .setNil).deref)).seq
    ((Component.at_supplier.lift .setNone).seq
    (Component.at_swid.lift .setNone))))).congr
      (g := fun (c : Component) => { c with
        author := "", mimeType := "",
        pedigree := c.pedigree.map (fun p => { p with patches := .nil }),
        supplier := none, swid := none })
      fun c => rfl)).seq
  ((Refines.ifThen (sv < SpecVersion1_3) (Component.at_properties.lift .setNil)).seq
  ((Refines.ifThen (sv < SpecVersion1_4)
    (((Component.at_releaseNotes.lift .setNone).seq
    (Component.at_version.lift (.ifStr (fun v => v = "") (.setStr "0.0.0")))).congr
      (g := fun (c : Component) => { c with releaseNotes := none, version := if c.version = "" then "0.0.0" else c.version })
      fun c => by simp only [decide_eq_true_eq])).seq
  ((Refines.ifThen (sv < SpecVersion1_5)
    (((Component.at_modelCard.lift .setNone).seq (Component.at_data.lift .setNil)).congr
      (g := fun (c : Component) => { c with modelCard := none, data := .nil }) fun c => rfl)).seq
  ((Refines.ifThen (sv < SpecVersion1_6)
    (((Component.at_swhid.lift .setNil).seq
    ((Component.at_omniborID.lift .setNil).seq
    ((Component.at_manufacturer.lift .setNone).seq
    ((Component.at_authors.lift .setNil).seq
    ((Component.at_tags.lift .setNil).seq
    (Component.at_cryptoProperties.lift .setNone)))))).congr
      (g := fun (c : Component) => { c with
        swhid := .nil, omniborID := .nil, manufacturer := none, authors := .nil, tags := .nil,
        cryptoProperties := none }) fun c => rfl)).seq
  ((Refines.ifThen (sv < SpecVersion1_7)
    (((Component.at_isExternal.lift .setNone).seq
    ((Component.at_patentAssertions.lift .setNil).seq
    (Component.at_versionRange.lift (.setStr "")))).congr
      (g := fun (c : Component) => { c with isExternal := none, patentAssertions := .nil, versionRange := "" })
      fun c => rfl)).seq
  (((Component.at_type.lift (.ifStr (fun t => !supportsComponentType sv t) (.setStr ComponentTypeApplication))).congr
      (g := fun (c : Component) => if !supportsComponentType sv c.type then { c with type := ComponentTypeApplication } else c)
      fun c => by
        cases c
        split <;> simp_all).seq
  ((Component.at_externalReferences.lift (convertExternalReferences_refines sv)).seq
  ((Component.at_hashes.lift (convertHashes_refines sv)).seq
  ((Component.at_licenses.lift (convertLicenses_refines sv)).seq
  ((convertEvidence_refines sv).seq
  ((convertModelCard_refines sv).seq
  ((Component.at_cryptoProperties.lift (convertCryptoProperties_refines sv).opt).seq
  ((Component.at_scope.lift (.ifStr (fun s => !supportsScope sv s) (.setStr ""))).congr
      (g := fun (c : Component) => if !supportsScope sv c.scope then { c with scope := "" } else c)
      fun c => by
        cases c
        split <;> simp_all)))))))))))))))

theorem serviceConverter_refines (sv : Int) : Refines (serviceConverter sv) Service.tree
    (Verif.serviceConverter sv) :=
  (Refines.ifThen (sv < SpecVersion1_3) (Service.at_properties.lift .setNil)).seq
  ((Refines.ifThen (sv < SpecVersion1_4) (Service.at_releaseNotes.lift .setNone)).seq
  ((Refines.ifThen (sv < SpecVersion1_5) (Service.at_trustZone.lift (.setStr ""))).seq
  ((Refines.ifThen (sv < SpecVersion1_6) (Service.at_data.lift (convertDataClassifications_refines sv))).seq
  ((Refines.ifThen (sv < SpecVersion1_7) (Service.at_patentAssertions.lift .setNil)).seq
  ((Service.at_provider.lift (convertOrganizationalEntity_refines sv).opt).seq
  (Service.at_externalReferences.lift (convertExternalReferences_refines sv)))))))

theorem convertTool_refines (sv : Int) : Refines (convertTool sv) Tool.tree (Verif.convertTool sv) :=
  (Refines.ifThen (sv < SpecVersion1_4) (Tool.at_externalReferences.lift .setNil)).seq
  ((Tool.at_externalReferences.lift (convertExternalReferences_refines sv)).seq
  (Tool.at_hashes.lift (convertHashes_refines sv)))

end Verif.Heap.Go
