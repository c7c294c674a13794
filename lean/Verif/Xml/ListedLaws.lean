import Verif.Xml.Listed
import Verif.Xml.FitsLaws

/-!
# Which values are written with enumerated strings only

GENERATED by `tools/gen_xenums.py`; do not edit by hand.
-/

namespace Verif

open Xml (sanitize trim textOf textKids)

variable [XFloatIO]

set_option linter.unusedSectionVars false
set_option linter.unusedSimpArgs false
set_option linter.unusedVariables false

theorem xlist_affectedVersions (v : Int) (x : AffectedVersions) : LsC v .targetVersionsVersion X.affectedVersions x (AffectedVersions.XListed v x) := by
  refine (ls_struct (
    la_calm (le_calm rfl) <|
    la_calm (le_calm rfl) <|
    la_elem le_plain <|
    la_nil)).congr ?_
  simp [AffectedVersions.XListed, AffectedVersions.toP]

theorem xlist_affects (v : Int) (x : Affects) : LsC v .target X.affects x (Affects.XListed v x) := by
  refine (ls_struct (
    la_calm (le_calm rfl) <|
    la_elem (lc_nlist (q := .targetVersions) rfl rfl rfl (fun _ => rfl) (fun y _ => xlist_affectedVersions v y)) <|
    la_nil)).congr ?_
  simp [Affects.XListed, Affects.toP]

theorem xlist_attachedText (v : Int) (x : AttachedText) : LsC v .attachedText X.attachedText x (AttachedText.XListed v x) := by
  refine (ls_struct (
    la_chardata <|
    la_attr_any rfl <|
    la_attr_oe <|
    la_nil)).congr ?_
  simp [AttachedText.XListed, AttachedText.toP]

theorem xlist_componentDataContents (v : Int) (x : ComponentDataContents) : LsC v .contents X.componentDataContents x (ComponentDataContents.XListed v x) := by
  refine (ls_struct (
    la_elem (lc_ptr rfl rfl (fun y _ => xlist_attachedText v y)) <|
    la_calm (le_calm rfl) <|
    la_calm (le_calm rfl) <|
    la_nil)).congr ?_
  simp [ComponentDataContents.XListed, ComponentDataContents.toP]

theorem xlist_componentDataGraphic (v : Int) (x : ComponentDataGraphic) : LsC v .graphic X.componentDataGraphic x (ComponentDataGraphic.XListed v x) := by
  refine (ls_struct (
    la_calm (le_calm rfl) <|
    la_elem (lc_ptr rfl rfl (fun y _ => xlist_attachedText v y)) <|
    la_nil)).congr ?_
  simp [ComponentDataGraphic.XListed, ComponentDataGraphic.toP]

theorem xlist_componentDataGraphics (v : Int) (x : ComponentDataGraphics) : LsC v .graphicsCollection X.componentDataGraphics x (ComponentDataGraphics.XListed v x) := by
  refine (ls_struct (
    la_calm (le_calm rfl) <|
    la_elem (lc_nlist (q := .collection) rfl rfl rfl (fun _ => rfl) (fun y _ => xlist_componentDataGraphic v y)) <|
    la_nil)).congr ?_
  simp [ComponentDataGraphics.XListed, ComponentDataGraphics.toP]

theorem xlist_componentData (v : Int) (x : ComponentData) : LsC v .componentData X.componentData x (ComponentData.XListed v x) := by
  refine (ls_struct (
    la_attr_any rfl <|
    la_elem le_plain_oe <|
    la_calm (le_calm rfl) <|
    la_elem (lc_ptr rfl rfl (fun y _ => xlist_componentDataContents v y)) <|
    la_calm (le_calm rfl) <|
    la_calm (le_calm rfl) <|
    la_elem (lc_ptr rfl rfl (fun y _ => xlist_componentDataGraphics v y)) <|
    la_calm (le_calm rfl) <|
    la_calm (le_calm rfl) <|
    la_nil)).congr ?_
  simp [ComponentData.XListed, ComponentData.toP]

theorem xlist_hash (v : Int) (x : Hash) : LsC v .hash X.hash x (Hash.XListed v x) := by
  refine (ls_struct (
    la_attr <|
    la_chardata <|
    la_nil)).congr ?_
  simp [Hash.XListed, Hash.toP]

theorem xlist_certificateState (v : Int) (x : CertificateState) :
    LsC v .certificateState X.certificateState x (CertificateState.XListed v x) := by
  intro n o ho
  simp only [X.certificateState] at ho
  split at ho
  · cases ho
  · rename_i p hp hc
    have h := ls_struct (v := v) (p := .certificateState) (s := p) (toP := PredefinedCertificateState.toP)
      (ofP := PredefinedCertificateState.ofP) (la_elem le_plain <| la_calm (le_calm rfl) <| la_nil) n o ho
    simpa [CertificateState.XListed, hp, PredefinedCertificateState.toP] using h
  · rename_i c hp hc
    have h := ls_struct (v := v) (p := .certificateState) (s := c) (toP := CustomCertificateState.toP)
      (ofP := CustomCertificateState.ofP)
      (la_calm (le_calm rfl) <| la_calm (le_calm rfl) <| la_calm (le_calm rfl) <| la_nil) n o ho
    simpa [CertificateState.XListed, hp] using h
  · rename_i hp hc
    cases ho
    simp [CertificateState.XListed, hp]


theorem xlist_certificateExtension (v : Int) (x : CertificateExtension) :
    LsC v .certificateExtension X.certificateExtension x (CertificateExtension.XListed v x) := by
  intro n o ho
  simp only [X.certificateExtension] at ho
  split at ho
  · cases ho
  · rename_i p hp hc
    have h := ls_struct (v := v) (p := .certificateExtension) (s := p) (toP := CommonCertificateExtension.toP)
      (ofP := CommonCertificateExtension.ofP) (la_elem le_plain <| la_calm (le_calm rfl) <| la_nil) n o ho
    simpa [CertificateExtension.XListed, hp, CommonCertificateExtension.toP] using h
  · rename_i c hp hc
    have h := ls_struct (v := v) (p := .certificateExtension) (s := c) (toP := CustomCertificateExtension.toP)
      (ofP := CustomCertificateExtension.ofP) (la_calm (le_calm rfl) <| la_calm (le_calm rfl) <| la_nil) n o ho
    simpa [CertificateExtension.XListed, hp] using h
  · rename_i hp hc
    cases ho
    simp [CertificateExtension.XListed, hp]


theorem xlist_certificateProperties (v : Int) (x : CertificateProperties) : LsC v .certificateProperties X.certificateProperties x (CertificateProperties.XListed v x) := by
  refine (ls_struct (
    la_calm (le_calm rfl) <|
    la_calm (le_calm rfl) <|
    la_calm (le_calm rfl) <|
    la_calm (le_calm rfl) <|
    la_calm (le_calm rfl) <|
    la_calm (le_calm rfl) <|
    la_calm (le_calm rfl) <|
    la_calm (le_calm rfl) <|
    la_calm (le_calm rfl) <|
    la_calm (le_calm rfl) <|
    la_elem (lc_ptr rfl rfl (fun y _ => xlist_hash v y)) <|
    la_elem (lc_list rfl rfl (fun _ => rfl) (fun y _ => xlist_certificateState v y)) <|
    la_elem (lc_nlist (q := .certificateExtensions) rfl rfl rfl (fun _ => rfl) (fun y _ => xlist_certificateExtension v y)) <|
    la_calm (le_calm rfl) <|
    la_calm (le_calm rfl) <|
    la_calm (le_calm rfl) <|
    la_calm (le_calm rfl) <|
    la_calm (le_calm rfl) <|
    la_calm (le_calm rfl) <|
    la_nil)).congr ?_
  simp [CertificateProperties.XListed, CertificateProperties.toP]

theorem xlist_cryptoAlgorithmProperties (v : Int) (x : CryptoAlgorithmProperties) : LsC v .algorithmProperties X.cryptoAlgorithmProperties x (CryptoAlgorithmProperties.XListed v x) := by
  refine (ls_struct (
    la_elem le_plain_oe <|
    la_calm (le_calm rfl) <|
    la_calm (le_calm rfl) <|
    la_calm (le_calm rfl) <|
    la_calm (le_calm rfl) <|
    la_elem le_plain_oe <|
    la_elem le_plain_oe <|
    la_elem le_list <|
    la_elem le_plain_oe <|
    la_elem le_plain_oe <|
    la_elem (le_nlist (q := .algorithmPropertiesCryptoFunctions) rfl rfl) <|
    la_calm (le_calm rfl) <|
    la_calm (le_calm rfl) <|
    la_nil)).congr ?_
  simp [CryptoAlgorithmProperties.XListed, CryptoAlgorithmProperties.toP]

theorem xlist_cryptoProtocolProperties (v : Int) (x : CryptoProtocolProperties) : LsC v .protocolProperties X.cryptoProtocolProperties x (CryptoProtocolProperties.XListed v x) := by
  refine (ls_struct (
    la_elem le_plain_oe <|
    la_calm (le_calm rfl) <|
    la_calm (le_calm rfl) <|
    la_calm (le_calm rfl) <|
    la_calm (le_calm rfl) <|
    la_calm (le_calm rfl) <|
    la_nil)).congr ?_
  simp [CryptoProtocolProperties.XListed, CryptoProtocolProperties.toP]

theorem xlist_relatedCryptoMaterialProperties (v : Int) (x : RelatedCryptoMaterialProperties) : LsC v .relatedCryptoMaterialProperties X.relatedCryptoMaterialProperties x (RelatedCryptoMaterialProperties.XListed v x) := by
  refine (ls_struct (
    la_elem le_plain_oe <|
    la_calm (le_calm rfl) <|
    la_elem le_plain_oe <|
    la_calm (le_calm rfl) <|
    la_calm (le_calm rfl) <|
    la_calm (le_calm rfl) <|
    la_calm (le_calm rfl) <|
    la_calm (le_calm rfl) <|
    la_calm (le_calm rfl) <|
    la_calm (le_calm rfl) <|
    la_calm (le_calm rfl) <|
    la_calm (le_calm rfl) <|
    la_elem (lc_ptr rfl rfl (fun y _ => xlist_hash v y)) <|
    la_calm (le_calm rfl) <|
    la_nil)).congr ?_
  simp [RelatedCryptoMaterialProperties.XListed, RelatedCryptoMaterialProperties.toP]

theorem xlist_cryptoProperties (v : Int) (x : CryptoProperties) : LsC v .cryptoProperties X.cryptoProperties x (CryptoProperties.XListed v x) := by
  refine (ls_struct (
    la_elem le_plain <|
    la_elem (lc_ptr rfl rfl (fun y _ => xlist_cryptoAlgorithmProperties v y)) <|
    la_elem (lc_ptr rfl rfl (fun y _ => xlist_certificateProperties v y)) <|
    la_elem (lc_ptr rfl rfl (fun y _ => xlist_relatedCryptoMaterialProperties v y)) <|
    la_elem (lc_ptr rfl rfl (fun y _ => xlist_cryptoProtocolProperties v y)) <|
    la_calm (le_calm rfl) <|
    la_nil)).congr ?_
  simp [CryptoProperties.XListed, CryptoProperties.toP]

theorem xlist_evidenceIdentityMethod (v : Int) (x : EvidenceIdentityMethod) : LsC v .methodsMethod X.evidenceIdentityMethod x (EvidenceIdentityMethod.XListed v x) := by
  refine (ls_struct (
    la_elem le_plain_oe <|
    la_calm (le_calm rfl) <|
    la_calm (le_calm rfl) <|
    la_nil)).congr ?_
  simp [EvidenceIdentityMethod.XListed, EvidenceIdentityMethod.toP]

theorem xlist_evidenceIdentity (v : Int) (x : EvidenceIdentity) : LsC v .identity X.evidenceIdentity x (EvidenceIdentity.XListed v x) := by
  refine (ls_struct (
    la_elem le_plain_oe <|
    la_calm (le_calm rfl) <|
    la_calm (le_calm rfl) <|
    la_elem (lc_nlist (q := .methods) rfl rfl rfl (fun _ => rfl) (fun y _ => xlist_evidenceIdentityMethod v y)) <|
    la_calm (le_calm rfl) <|
    la_nil)).congr ?_
  simp [EvidenceIdentity.XListed, EvidenceIdentity.toP]

theorem xlist_licensing (v : Int) (x : Licensing) : LsC v .licensing X.licensing x (Licensing.XListed v x) := by
  refine (ls_struct (
    la_calm (le_calm rfl) <|
    la_calm (le_calm rfl) <|
    la_calm (le_calm rfl) <|
    la_calm (le_calm rfl) <|
    la_calm (le_calm rfl) <|
    la_elem (le_nlist (q := .licenseTypes) rfl rfl) <|
    la_calm (le_calm rfl) <|
    la_calm (le_calm rfl) <|
    la_nil)).congr ?_
  simp [Licensing.XListed, Licensing.toP]

theorem xlist_license (v : Int) (x : License) : LsC v .license X.license x (License.XListed v x) := by
  have H : LsC v .license (XCodec.struct X.licenseFields License.toP License.ofP) x (License.XListed v x) := by
    refine (ls_struct (
    la_attr_any rfl <|
    la_calm (le_calm rfl) <|
    la_calm (le_calm rfl) <|
    la_attr_oe <|
    la_elem (lc_ptr rfl rfl (fun y _ => xlist_attachedText v y)) <|
    la_calm (le_calm rfl) <|
    la_elem (lc_ptr rfl rfl (fun y _ => xlist_licensing v y)) <|
    la_calm (le_calm rfl) <|
    la_nil)).congr ?_
    simp [License.XListed, License.toP]
  intro n o ho
  simp only [X.license] at ho
  split at ho
  · cases ho
  · split at ho
    · cases ho
    · exact H n o ho


theorem xlist_licenseExpressionDetail (v : Int) (x : LicenseExpressionDetail) :
    LsC v .licenseExpressionDetailedTypeDetails X.licenseExpressionDetail x (LicenseExpressionDetail.XListed v x) := by
  refine (ls_struct (F := X.licenseExpressionDetailFields) (la_attr_any rfl <|
    la_elem (lc_ptr rfl rfl (fun y _ => xlist_attachedText v y)) <| la_calm (le_calm rfl) <| la_nil)).congr ?_
  simp [LicenseExpressionDetail.XListed]

theorem lists_detailed {v : Int} {s : String} : XPlace.ListsAttr v .licenseExpressionDetailed "acknowledgement" s ↔
    XPlace.ListsAttr v .licenseExpression "acknowledgement" s := Iff.rfl

theorem xlist_licenseChoice (v : Int) {c : LicenseChoice} {k : List Xml} (h : X.licenseChoiceEnc c = some k) :
    (∀ y ∈ k, KidOk v .licenseChoice y) ↔ LicenseChoice.XListed v c := by
  simp only [X.licenseChoiceEnc] at h
  split at h
  · rename_i l hl
    split at h
    · cases h
    · rename_i he
      obtain ⟨o, ho, rfl⟩ := Option.map_eq_some_iff.mp h
      have := one (p := .licenseChoice) (m := "license") rfl rfl rfl (xlist_license v l) ho
      simpa [LicenseChoice.XListed, hl, Option.mem_toList] using this
  · rename_i hl
    split at h
    · rename_i he
      split at h
      · rename_i hd
        obtain ⟨o, ho, rfl⟩ := Option.map_eq_some_iff.mp h
        have hd : c.expressionDetails = .nil := by cases hq : c.expressionDetails <;> simp_all [PSlice.isNil]
        have := ls_struct (v := v) (p := .licenseExpression) (F := X.licenseExpressionFields)
          (la_chardata <| la_attr_oe <| la_attr_any rfl <| la_nil) _ o ho
        simp only [XCodec.struct] at ho
        obtain ⟨ks, hk, rfl⟩ := Option.map_eq_some_iff.1 ho
        simp only [Option.toList_some, List.mem_singleton, forall_eq, Option.mem_def, Option.some.injEq, forall_eq', id] at this ⊢
        rw [kid_at (m := "expression") (q := .licenseExpression) rfl rfl rfl, this]
        cases hak : c.acknowledgement <;> simp [LicenseChoice.XListed, hl, he, hd, hak, PSlice.elems]
      · rename_i hd
        obtain ⟨o, ho, rfl⟩ := Option.map_eq_some_iff.mp h
        have := ls_struct (v := v) (p := .licenseExpressionDetailed) (F := X.licenseExpressionDetailedFields)
          (la_attr_any rfl <| la_attr_oe <| la_attr_any rfl <|
            la_elem (lc_list rfl rfl (fun _ => rfl) (fun y _ => xlist_licenseExpressionDetail v y)) <| la_nil) _ o ho
        simp only [XCodec.struct] at ho
        obtain ⟨ks, hk, rfl⟩ := Option.map_eq_some_iff.1 ho
        simp only [Option.toList_some, List.mem_singleton, forall_eq, Option.mem_def, Option.some.injEq, forall_eq', id,
          lists_detailed] at this ⊢
        rw [kid_at (m := "expression-detailed") (q := .licenseExpressionDetailed) rfl rfl rfl, this]
        cases hak : c.acknowledgement <;> simp [LicenseChoice.XListed, hl, he, hak]
    · rename_i he
      cases h
      simp [LicenseChoice.XListed, hl, not_not.mp he]

theorem xlist_licenses (v : Int) (l : List LicenseChoice) :
    LsC v .licenseChoice X.licenses l (∀ y ∈ l, LicenseChoice.XListed v y) := by
  intro n o ho
  cases hl : l with
  | nil => subst hl; cases ho; simp
  | cons c cs =>
    have ho' : (X.encEach X.licenseChoiceEnc l).map (fun ks => some (Xml.elem n [] ks)) = some o := by
      rw [hl] at ho ⊢; exact ho
    rw [← hl]
    obtain ⟨ks, hks, rfl⟩ := Option.map_eq_some_iff.mp ho'
    simp only [Option.mem_def, Option.some.injEq, forall_eq']
    rw [xlisted_iff]
    simp only [List.not_mem_nil, false_implies, implies_true, true_and]
    exact encEach_all hks fun a _ k hk => xlist_licenseChoice v hk


theorem xlist_evidence (v : Int) (x : Evidence) : LsC v .componentEvidence X.evidence x (Evidence.XListed v x) := by
  intro n o ho
  simp only [X.evidence] at ho
  have nn : ∀ {α : Type} (p : PSlice α), p.isNil = true ↔ p = .nil := by
    intro α p; cases p <;> simp [PSlice.isNil]
  split at ho
  · rename_i h
    simp only [Option.isNone_iff_eq_none, nn] at h
    cases ho
    simp [Evidence.XListed, h, PSlice.elems]
  · have H := ls_struct (v := v) (p := .componentEvidence) (F := X.evidenceFields) (toP := _root_.id) (ofP := _root_.id)
      (la_elem (lc_list rfl rfl (fun _ => rfl) (fun y _ => xlist_evidenceIdentity v y)) <|
      la_calm (le_calm rfl) <| la_calm (le_calm rfl) <| la_elem (lc_slice rfl rfl (xlist_licenses v _)) <|
      la_calm (le_calm rfl) <| la_nil) n o ho
    rw [H]
    simp only [id, and_true, Evidence.XListed]
    refine and_congr ?_ Iff.rfl
    simp only [X.evidenceIdentities]
    cases hc : x.identity with
    | none => simp [PSlice.elems]
    | some c =>
      cases hi : c.identities <;> cases hj : c.identity <;> simp [EvidenceIdentityChoice.XListed, hi, hj, PSlice.isNil, PSlice.elems]


theorem xlist_externalReference (v : Int) (x : ExternalReference) : LsC v .externalReference X.externalReference x (ExternalReference.XListed v x) := by
  refine (ls_struct (
    la_calm (le_calm rfl) <|
    la_calm (le_calm rfl) <|
    la_elem (lc_nlist (q := .toolTypeHashes) rfl rfl rfl (fun _ => rfl) (fun y _ => xlist_hash v y)) <|
    la_attr <|
    la_calm (le_calm rfl) <|
    la_nil)).congr ?_
  simp [ExternalReference.XListed, ExternalReference.toP]

theorem xlist_mlModelCO2Measure (v : Int) (x : MLModelCO2Measure) : LsC v .co2Measure X.mlModelCO2Measure x (MLModelCO2Measure.XListed v x) := by
  refine (ls_struct (
    la_calm (le_calm rfl) <|
    la_elem le_plain <|
    la_nil)).congr ?_
  simp [MLModelCO2Measure.XListed, MLModelCO2Measure.toP]

theorem xlist_mlModelEnergyMeasure (v : Int) (x : MLModelEnergyMeasure) : LsC v .co2Measure X.mlModelEnergyMeasure x (MLModelEnergyMeasure.XListed v x) := by
  refine (ls_struct (
    la_calm (le_calm rfl) <|
    la_elem le_plain <|
    la_nil)).congr ?_
  simp [MLModelEnergyMeasure.XListed, MLModelEnergyMeasure.toP]

theorem xlist_mlModelEnergyProvider (v : Int) (x : MLModelEnergyProvider) : LsC v .energyProvider X.mlModelEnergyProvider x (MLModelEnergyProvider.XListed v x) := by
  refine (ls_struct (
    la_attr_any rfl <|
    la_calm (le_calm rfl) <|
    la_calm (le_calm rfl) <|
    la_elem le_plain <|
    la_elem (lc_ptr rfl rfl (fun y _ => xlist_mlModelEnergyMeasure v y)) <|
    la_elem (lc_nlist (q := .externalReferences) rfl rfl rfl (fun _ => rfl) (fun y _ => xlist_externalReference v y)) <|
    la_nil)).congr ?_
  simp [MLModelEnergyProvider.XListed, MLModelEnergyProvider.toP]

theorem xlist_mlModelEnergyConsumption (v : Int) (x : MLModelEnergyConsumption) : LsC v .energyConsumption X.mlModelEnergyConsumption x (MLModelEnergyConsumption.XListed v x) := by
  refine (ls_struct (
    la_elem le_plain <|
    la_elem (lc_list rfl rfl (fun _ => rfl) (fun y _ => xlist_mlModelEnergyProvider v y)) <|
    la_elem (lc_plain rfl rfl (fun _ => rfl) (xlist_mlModelEnergyMeasure v _)) <|
    la_elem (lc_ptr rfl rfl (fun y _ => xlist_mlModelCO2Measure v y)) <|
    la_elem (lc_ptr rfl rfl (fun y _ => xlist_mlModelCO2Measure v y)) <|
    la_calm (le_calm rfl) <|
    la_nil)).congr ?_
  simp [MLModelEnergyConsumption.XListed, MLModelEnergyConsumption.toP]

theorem xlist_mlModelCardEnvironmentalConsiderations (v : Int) (x : MLModelCardEnvironmentalConsiderations) : LsC v .environmentalConsiderations X.mlModelCardEnvironmentalConsiderations x (MLModelCardEnvironmentalConsiderations.XListed v x) := by
  refine (ls_struct (
    la_elem (lc_nlist (q := .energyConsumptions) rfl rfl rfl (fun _ => rfl) (fun y _ => xlist_mlModelEnergyConsumption v y)) <|
    la_calm (le_calm rfl) <|
    la_nil)).congr ?_
  simp [MLModelCardEnvironmentalConsiderations.XListed, MLModelCardEnvironmentalConsiderations.toP]

theorem xlist_mlModelCardConsiderations (v : Int) (x : MLModelCardConsiderations) : LsC v .considerations X.mlModelCardConsiderations x (MLModelCardConsiderations.XListed v x) := by
  refine (ls_struct (
    la_calm (le_calm rfl) <|
    la_calm (le_calm rfl) <|
    la_calm (le_calm rfl) <|
    la_calm (le_calm rfl) <|
    la_calm (le_calm rfl) <|
    la_elem (lc_ptr rfl rfl (fun y _ => xlist_mlModelCardEnvironmentalConsiderations v y)) <|
    la_calm (le_calm rfl) <|
    la_nil)).congr ?_
  simp [MLModelCardConsiderations.XListed, MLModelCardConsiderations.toP]

theorem xlist_mlDatasetChoice (v : Int) (x : MLDatasetChoice) :
    LsC v .componentData X.mlDatasetChoice x (MLDatasetChoice.XListed v x) := by
  intro n o ho
  simp only [X.mlDatasetChoice] at ho
  split at ho
  · rename_i h
    have H := ls_struct (v := v) (p := .componentData) (s := x.ref) (toP := fun s => (s, ())) (ofP := fun p => p.1)
      (la_calm (le_calm rfl) <| la_nil) n o ho
    simpa [MLDatasetChoice.XListed, h] using H
  · rename_i h
    have h : x.ref = "" := not_not.mp h
    split at ho
    · rename_i d hd
      simpa [MLDatasetChoice.XListed, h, hd] using xlist_componentData v d n o ho
    · rename_i hd
      cases ho
      simp [MLDatasetChoice.XListed, h, hd]


theorem xlist_mlModelParametersApproach (v : Int) (x : MLModelParametersApproach) : LsC v .approach X.mlModelParametersApproach x (MLModelParametersApproach.XListed v x) := by
  refine (ls_struct (
    la_elem le_plain_oe <|
    la_nil)).congr ?_
  simp [MLModelParametersApproach.XListed, MLModelParametersApproach.toP]

theorem xlist_mlModelParameters (v : Int) (x : MLModelParameters) : LsC v .modelParameters X.mlModelParameters x (MLModelParameters.XListed v x) := by
  refine (ls_struct (
    la_elem (lc_ptr rfl rfl (fun y _ => xlist_mlModelParametersApproach v y)) <|
    la_calm (le_calm rfl) <|
    la_calm (le_calm rfl) <|
    la_calm (le_calm rfl) <|
    la_elem (lc_nlist (q := .datasets) rfl rfl rfl (fun _ => rfl) (fun y _ => xlist_mlDatasetChoice v y)) <|
    la_calm (le_calm rfl) <|
    la_calm (le_calm rfl) <|
    la_nil)).congr ?_
  simp [MLModelParameters.XListed, MLModelParameters.toP]

theorem xlist_mlQuantitativeAnalysis (v : Int) (x : MLQuantitativeAnalysis) : LsC v .quantitativeAnalysis X.mlQuantitativeAnalysis x (MLQuantitativeAnalysis.XListed v x) := by
  refine (ls_struct (
    la_calm (le_calm rfl) <|
    la_elem (lc_ptr rfl rfl (fun y _ => xlist_componentDataGraphics v y)) <|
    la_nil)).congr ?_
  simp [MLQuantitativeAnalysis.XListed, MLQuantitativeAnalysis.toP]

theorem xlist_mlModelCard (v : Int) (x : MLModelCard) : LsC v .modelCard X.mlModelCard x (MLModelCard.XListed v x) := by
  refine (ls_struct (
    la_attr_any rfl <|
    la_elem (lc_ptr rfl rfl (fun y _ => xlist_mlModelParameters v y)) <|
    la_elem (lc_ptr rfl rfl (fun y _ => xlist_mlQuantitativeAnalysis v y)) <|
    la_elem (lc_ptr rfl rfl (fun y _ => xlist_mlModelCardConsiderations v y)) <|
    la_nil)).congr ?_
  simp [MLModelCard.XListed, MLModelCard.toP]

theorem xlist_diff (v : Int) (x : Diff) : LsC v .diff X.diff x (Diff.XListed v x) := by
  refine (ls_struct (
    la_elem (lc_ptr rfl rfl (fun y _ => xlist_attachedText v y)) <|
    la_calm (le_calm rfl) <|
    la_nil)).congr ?_
  simp [Diff.XListed, Diff.toP]

theorem xlist_issue (v : Int) (x : Issue) : LsC v .issue X.issue x (Issue.XListed v x) := by
  refine (ls_struct (
    la_calm (le_calm rfl) <|
    la_calm (le_calm rfl) <|
    la_calm (le_calm rfl) <|
    la_calm (le_calm rfl) <|
    la_calm (le_calm rfl) <|
    la_attr <|
    la_nil)).congr ?_
  simp [Issue.XListed, Issue.toP]

theorem xlist_patch (v : Int) (x : Patch) : LsC v .patch X.patch x (Patch.XListed v x) := by
  refine (ls_struct (
    la_elem (lc_ptr rfl rfl (fun y _ => xlist_diff v y)) <|
    la_elem (lc_nlist (q := .patchTypeResolves) rfl rfl rfl (fun _ => rfl) (fun y _ => xlist_issue v y)) <|
    la_attr <|
    la_nil)).congr ?_
  simp [Patch.XListed, Patch.toP]

theorem xlist_note (v : Int) (x : Note) : LsC v .notesNote X.note x (Note.XListed v x) := by
  refine (ls_struct (
    la_calm (le_calm rfl) <|
    la_elem (lc_plain rfl rfl (fun _ => rfl) (xlist_attachedText v _)) <|
    la_nil)).congr ?_
  simp [Note.XListed, Note.toP]

theorem xlist_releaseNotes (v : Int) (x : ReleaseNotes) : LsC v .releaseNotes X.releaseNotes x (ReleaseNotes.XListed v x) := by
  refine (ls_struct (
    la_calm (le_calm rfl) <|
    la_calm (le_calm rfl) <|
    la_calm (le_calm rfl) <|
    la_calm (le_calm rfl) <|
    la_calm (le_calm rfl) <|
    la_calm (le_calm rfl) <|
    la_calm (le_calm rfl) <|
    la_calm (le_calm rfl) <|
    la_elem (lc_nlist (q := .patchTypeResolves) rfl rfl rfl (fun _ => rfl) (fun y _ => xlist_issue v y)) <|
    la_elem (lc_nlist (q := .notes) rfl rfl rfl (fun _ => rfl) (fun y _ => xlist_note v y)) <|
    la_calm (le_calm rfl) <|
    la_nil)).congr ?_
  simp [ReleaseNotes.XListed, ReleaseNotes.toP]

theorem xlist_swid (v : Int) (x : SWID) : LsC v .swid X.swid x (SWID.XListed v x) := by
  refine (ls_struct (
    la_elem (lc_ptr rfl rfl (fun y _ => xlist_attachedText v y)) <|
    la_attr_any rfl <|
    la_attr_any rfl <|
    la_attr_any rfl <|
    la_attr_any rfl <|
    la_attrPtr_any rfl <|
    la_attrPtr_any rfl <|
    la_nil)).congr ?_
  simp [SWID.XListed, SWID.toP]

theorem xlist_patentAssertion (v : Int) (x : PatentAssertion) : LsC v .patentAssertion X.patentAssertion x (PatentAssertion.XListed v x) := by
  refine (ls_struct (
    la_attr_any rfl <|
    la_calm (le_calm rfl) <|
    la_elem le_plain <|
    la_calm (le_calm rfl) <|
    la_calm (le_calm rfl) <|
    la_nil)).congr ?_
  simp [PatentAssertion.XListed, PatentAssertion.toP]

omit [XFloatIO] in
theorem xlistedComponentList_iff {v : Int} : ∀ {xs : List Component}, XListedComponentList v xs ↔ ∀ y ∈ xs, y.XListed v
  | [] => by simp [XListedComponentList]
  | x :: xs => by simp [XListedComponentList, xlistedComponentList_iff]

omit [XFloatIO] in
theorem xlistedComponents_iff {v : Int} {p : PSlice Component} : XListedComponents v p ↔ ∀ y ∈ p.elems, y.XListed v := by
  cases p <;> simp [XListedComponents, PSlice.elems, xlistedComponentList_iff]

omit [XFloatIO] in
theorem xlistedPedigreeOpt_iff {v : Int} {p : Option (Pedigree Component)} :
    XListedPedigreeOpt v p ↔ ∀ y ∈ p, XListedPedigree v y := by
  cases p <;> simp [XListedPedigreeOpt]

theorem xlist_pedigreeWith (v : Int) (x : Pedigree Component)
    (h_ancestors : ∀ c ∈ x.ancestors.elems, LsC v .component X.component c (c.XListed v))
    (h_descendants : ∀ c ∈ x.descendants.elems, LsC v .component X.component c (c.XListed v))
    (h_variants : ∀ c ∈ x.variants.elems, LsC v .component X.component c (c.XListed v)) :
    LsC v .pedigree (X.pedigree X.component) x (XListedPedigree v x) := by
  refine (ls_struct (
    la_elem (lc_nlist (q := .components) rfl rfl rfl (fun _ => rfl) (h_ancestors)) <|
    la_elem (lc_nlist (q := .components) rfl rfl rfl (fun _ => rfl) (h_descendants)) <|
    la_elem (lc_nlist (q := .components) rfl rfl rfl (fun _ => rfl) (h_variants)) <|
    la_calm (le_calm rfl) <|
    la_elem (lc_nlist (q := .patches) rfl rfl rfl (fun _ => rfl) (fun y _ => xlist_patch v y)) <|
    la_calm (le_calm rfl) <|
    la_nil)).congr ?_
  cases x
  simp [XListedPedigree, Pedigree.toP, xlistedComponents_iff]

theorem xlist_componentWith (v : Int) (x : Component)
    (h_components : ∀ c ∈ x.components.elems, LsC v .component X.component c (c.XListed v))
    (h_pedigree : ∀ p ∈ x.pedigree, LsC v .pedigree (X.pedigree X.component) p (XListedPedigree v p)) :
    LsC v .component (X.componentWith X.component) x (x.XListed v) := by
  refine (ls_struct (
    la_attr_any rfl <|
    la_attr_any rfl <|
    la_attr <|
    la_calm (le_calm rfl) <|
    la_calm (le_calm rfl) <|
    la_calm (le_calm rfl) <|
    la_calm (le_calm rfl) <|
    la_calm (le_calm rfl) <|
    la_calm (le_calm rfl) <|
    la_calm (le_calm rfl) <|
    la_calm (le_calm rfl) <|
    la_calm (le_calm rfl) <|
    la_elem le_plain_oe <|
    la_elem (lc_nlist (q := .toolTypeHashes) rfl rfl rfl (fun _ => rfl) (fun y _ => xlist_hash v y)) <|
    la_elem (lc_slice rfl rfl (xlist_licenses v _)) <|
    la_calm (le_calm rfl) <|
    la_calm (le_calm rfl) <|
    la_calm (le_calm rfl) <|
    la_calm (le_calm rfl) <|
    la_calm (le_calm rfl) <|
    la_elem (lc_ptr rfl rfl (fun y _ => xlist_swid v y)) <|
    la_calm (le_calm rfl) <|
    la_elem (lc_ptr rfl rfl (h_pedigree)) <|
    la_elem (lc_nlist (q := .externalReferences) rfl rfl rfl (fun _ => rfl) (fun y _ => xlist_externalReference v y)) <|
    la_calm (le_calm rfl) <|
    la_elem (lc_nlist (q := .components) rfl rfl rfl (fun _ => rfl) (h_components)) <|
    la_elem (lc_ptr rfl rfl (fun y _ => xlist_evidence v y)) <|
    la_elem (lc_ptr rfl rfl (fun y _ => xlist_releaseNotes v y)) <|
    la_elem (lc_ptr rfl rfl (fun y _ => xlist_mlModelCard v y)) <|
    la_elem (lc_list rfl rfl (fun _ => rfl) (fun y _ => xlist_componentData v y)) <|
    la_elem (lc_ptr rfl rfl (fun y _ => xlist_cryptoProperties v y)) <|
    la_calm (le_calm rfl) <|
    la_calm (le_calm rfl) <|
    la_elem (lc_nlist (q := .servicePatentAssertions) rfl rfl rfl (fun _ => rfl) (fun y _ => xlist_patentAssertion v y)) <|
    la_calm (le_calm rfl) <|
    la_skip <|
    la_nil)).congr ?_
  cases x
  simp [Component.XListed, Component.toP, xlistedComponents_iff, xlistedPedigreeOpt_iff]

theorem xlist_component (v : Int) (x : Component) : LsC v .component X.component x (x.XListed v) := by
  suffices H : ∀ k (x : Component), x.height ≤ k → LsC v .component X.component x (x.XListed v) from
    H x.height x (Nat.le_refl _)
  intro k
  induction k with
  | zero => intro x h; rw [Component.height_eq] at h; omega
  | succ k ih =>
    intro x h n o ho
    rw [xcomponent_enc] at ho
    revert n o
    rw [Component.height_eq] at h
    have hm : max (heightComponents x.components) (heightPedigreeOpt x.pedigree) ≤ k := by omega
    rw [Nat.max_le] at hm
    have hl : ∀ p : PSlice Component, heightComponents p ≤ k →
        ∀ c ∈ p.elems, LsC v .component X.component c (c.XListed v) := by
      intro p hp
      rw [heightComponents_le] at hp
      exact fun c hc => ih c (hp c hc)
    refine xlist_componentWith v x (hl _ hm.1) ?_
    intro p hp
    have hp : x.pedigree = some p := hp
    have hm := hm.2
    simp only [hp, heightPedigreeOpt, heightPedigree_eq, Nat.max_le] at hm
    exact xlist_pedigreeWith v p (hl _ hm.1) (hl _ hm.2.1) (hl _ hm.2.2)


theorem urls_free {v : Int} {n : String} {us : PSlice String} (h : XPlace.freeElem .dataflow n = true) :
    ∀ y ∈ X.urlsElem n us, KidOk v .dataflow y := by
  intro y hy
  refine kid_free (m := n) ?_ h
  unfold X.urlsElem at hy
  split at hy
  · cases hy
  · simp only [List.mem_singleton] at hy; subst hy; simp [Xml.isElem]

theorem xlist_dataClassification (v : Int) (x : DataClassification) :
    LsC v .dataflow X.dataClassification x (DataClassification.XListed v x) := by
  intro n o ho
  simp only [X.dataClassification] at ho
  split at ho
  · cases ho
  · rename_i gs hg
    cases ho
    simp only [Option.mem_def, Option.some.injEq, forall_eq']
    rw [xlisted_iff]
    have ha : ∀ a ∈ X.attrUnlessEmpty "name" x.name ++ X.attrUnlessEmpty "description" x.description,
        XPlace.ListsAttr v .dataflow a.1 a.2 := by
      intro a _
      exact fun gs hg => by cases hg
    have hgs := (le_calm (v := v) (p := .dataflow) (f := XField.ptr "governance" X.dataGovernance) rfl gs hg).2 trivial
    have hs := urls_free (v := v) (n := "source") (us := x.source) rfl
    have hd := urls_free (v := v) (n := "destination") (us := x.destination) rfl
    simp only [List.mem_append, or_imp, forall_and]
    have hc : (∀ y ∈ (if x.classification ≠ "" ∨ x.flow ≠ "" then
        [.elem "classification" (X.attrUnlessEmpty "flow" x.flow) (textKids (sanitize x.classification))] else []),
        KidOk v .dataflow y) ↔ DataClassification.XListed v x := by
      split
      · simp only [List.mem_singleton, forall_eq]
        rw [kid_at (m := "classification") (q := .dataClassification) rfl rfl rfl, xlisted_iff]
        have ht : ∀ y ∈ textKids (sanitize x.classification), KidOk v .dataClassification y := by
          intro y hy
          unfold textKids at hy
          split at hy
          · cases hy
          · simp only [List.mem_singleton] at hy; subst hy; trivial
        simp only [X.attrUnlessEmpty, DataClassification.XListed]
        split
        · rename_i hf
          simp only [List.mem_singleton, forall_eq, hf, ne_eq, not_false_eq_true, true_implies, listsAttr_sanitize]
          exact ⟨fun h => h.1, fun h => ⟨h, ht⟩⟩
        · rename_i hf
          exact ⟨fun _ h => absurd h hf, fun _ => ⟨fun a h => (nomatch h), ht⟩⟩
      · rename_i h
        simp only [not_or, not_not] at h
        simp [DataClassification.XListed, h.2]
    constructor
    · intro h
      exact hc.1 h.2.1.1.1
    · intro h
      exact ⟨by simpa only [List.mem_append, or_imp, forall_and] using ha, ⟨⟨hc.2 h, hgs⟩, hs⟩, hd⟩


omit [XFloatIO] in
theorem xlistedServiceList_iff {v : Int} : ∀ {xs : List Service}, XListedServiceList v xs ↔ ∀ y ∈ xs, y.XListed v
  | [] => by simp [XListedServiceList]
  | x :: xs => by simp [XListedServiceList, xlistedServiceList_iff]

omit [XFloatIO] in
theorem xlistedServices_iff {v : Int} {p : PSlice Service} : XListedServices v p ↔ ∀ y ∈ p.elems, y.XListed v := by
  cases p <;> simp [XListedServices, PSlice.elems, xlistedServiceList_iff]

theorem xlist_serviceWith (v : Int) (x : Service)
    (h_services : ∀ c ∈ x.services.elems, LsC v .service X.service c (c.XListed v)) :
    LsC v .service (X.serviceWith X.service) x (x.XListed v) := by
  refine (ls_struct (
    la_attr_any rfl <|
    la_calm (le_calm rfl) <|
    la_calm (le_calm rfl) <|
    la_calm (le_calm rfl) <|
    la_calm (le_calm rfl) <|
    la_calm (le_calm rfl) <|
    la_calm (le_calm rfl) <|
    la_calm (le_calm rfl) <|
    la_calm (le_calm rfl) <|
    la_elem (lc_nlist (q := .serviceData) (m := "dataflow") rfl rfl rfl (fun _ => rfl) fun y _ => xlist_dataClassification v y) <|
    la_elem (lc_slice rfl rfl (xlist_licenses v _)) <|
    la_elem (lc_nlist (q := .externalReferences) rfl rfl rfl (fun _ => rfl) (fun y _ => xlist_externalReference v y)) <|
    la_calm (le_calm rfl) <|
    la_elem (lc_nlist (q := .services) rfl rfl rfl (fun _ => rfl) (h_services)) <|
    la_elem (lc_ptr rfl rfl (fun y _ => xlist_releaseNotes v y)) <|
    la_calm (le_calm rfl) <|
    la_calm (le_calm rfl) <|
    la_elem (lc_nlist (q := .servicePatentAssertions) rfl rfl rfl (fun _ => rfl) (fun y _ => xlist_patentAssertion v y)) <|
    la_skip <|
    la_nil)).congr ?_
  cases x
  simp [Service.XListed, Service.toP, xlistedServices_iff]

theorem xlist_service (v : Int) (x : Service) : LsC v .service X.service x (x.XListed v) := by
  suffices H : ∀ k (x : Service), x.height ≤ k → LsC v .service X.service x (x.XListed v) from
    H x.height x (Nat.le_refl _)
  intro k
  induction k with
  | zero => intro x h; rw [Service.height_eq] at h; omega
  | succ k ih =>
    intro x h n o ho
    rw [xservice_enc] at ho
    revert n o
    rw [Service.height_eq] at h
    have hm : heightServices x.services ≤ k := by omega
    rw [heightServices_le] at hm
    exact xlist_serviceWith v x fun c hc => ih c (hm c hc)


theorem xlist_annotator (v : Int) (x : Annotator) : LsC v .annotatorChoice X.annotator x (Annotator.XListed v x) := by
  refine (ls_struct (
    la_calm (le_calm rfl) <|
    la_calm (le_calm rfl) <|
    la_elem (lc_ptr rfl rfl (fun y _ => xlist_component v y)) <|
    la_elem (lc_ptr rfl rfl (fun y _ => xlist_service v y)) <|
    la_nil)).congr ?_
  simp [Annotator.XListed, Annotator.toP]

theorem xlist_annotation (v : Int) (x : Annotation) : LsC v .annotation X.annotation x (Annotation.XListed v x) := by
  refine (ls_struct (
    la_attr_any rfl <|
    la_calm (le_calm rfl) <|
    la_elem (lc_ptr rfl rfl (fun y _ => xlist_annotator v y)) <|
    la_calm (le_calm rfl) <|
    la_calm (le_calm rfl) <|
    la_skip <|
    la_nil)).congr ?_
  simp [Annotation.XListed, Annotation.toP]

theorem xlist_composition (v : Int) (x : Composition) : LsC v .composition X.composition x (Composition.XListed v x) := by
  refine (ls_struct (
    la_attr_any rfl <|
    la_elem le_plain <|
    la_calm (le_calm rfl) <|
    la_calm (le_calm rfl) <|
    la_calm (le_calm rfl) <|
    la_skip <|
    la_nil)).congr ?_
  simp [Composition.XListed, Composition.toP]

theorem xlist_claim (v : Int) (x : Claim) : LsC v .claim X.claim x (Claim.XListed v x) := by
  refine (ls_struct (
    la_attr_any rfl <|
    la_calm (le_calm rfl) <|
    la_calm (le_calm rfl) <|
    la_calm (le_calm rfl) <|
    la_calm (le_calm rfl) <|
    la_calm (le_calm rfl) <|
    la_calm (le_calm rfl) <|
    la_elem (lc_nlist (q := .externalReferences) rfl rfl rfl (fun _ => rfl) (fun y _ => xlist_externalReference v y)) <|
    la_skip <|
    la_nil)).congr ?_
  simp [Claim.XListed, Claim.toP]

theorem xlist_evidenceDataContents (v : Int) (x : EvidenceDataContents) : LsC v .dataContents X.evidenceDataContents x (EvidenceDataContents.XListed v x) := by
  refine (ls_struct (
    la_elem (lc_ptr rfl rfl (fun y _ => xlist_attachedText v y)) <|
    la_calm (le_calm rfl) <|
    la_nil)).congr ?_
  simp [EvidenceDataContents.XListed, EvidenceDataContents.toP]

theorem xlist_evidenceData (v : Int) (x : EvidenceData) : LsC v .data X.evidenceData x (EvidenceData.XListed v x) := by
  refine (ls_struct (
    la_calm (le_calm rfl) <|
    la_elem (lc_ptr rfl rfl (fun y _ => xlist_evidenceDataContents v y)) <|
    la_calm (le_calm rfl) <|
    la_calm (le_calm rfl) <|
    la_calm (le_calm rfl) <|
    la_nil)).congr ?_
  simp [EvidenceData.XListed, EvidenceData.toP]

theorem xlist_declarationEvidence (v : Int) (x : DeclarationEvidence) : LsC v .declarationsEvidenceEvidence X.declarationEvidence x (DeclarationEvidence.XListed v x) := by
  refine (ls_struct (
    la_attr_any rfl <|
    la_calm (le_calm rfl) <|
    la_calm (le_calm rfl) <|
    la_elem (lc_list rfl rfl (fun _ => rfl) (fun y _ => xlist_evidenceData v y)) <|
    la_calm (le_calm rfl) <|
    la_calm (le_calm rfl) <|
    la_calm (le_calm rfl) <|
    la_calm (le_calm rfl) <|
    la_skip <|
    la_nil)).congr ?_
  simp [DeclarationEvidence.XListed, DeclarationEvidence.toP]

theorem xlist_targets (v : Int) (x : Targets) : LsC v .targets X.targets x (Targets.XListed v x) := by
  refine (ls_struct (
    la_calm (le_calm rfl) <|
    la_elem (lc_nlist (q := .components) rfl rfl rfl (fun _ => rfl) (fun y _ => xlist_component v y)) <|
    la_elem (lc_nlist (q := .services) rfl rfl rfl (fun _ => rfl) (fun y _ => xlist_service v y)) <|
    la_nil)).congr ?_
  simp [Targets.XListed, Targets.toP]

theorem xlist_signatory (v : Int) (x : Signatory) : LsC v .signatory X.signatory x (Signatory.XListed v x) := by
  refine (ls_struct (
    la_calm (le_calm rfl) <|
    la_calm (le_calm rfl) <|
    la_skip <|
    la_calm (le_calm rfl) <|
    la_elem (lc_ptr rfl rfl (fun y _ => xlist_externalReference v y)) <|
    la_nil)).congr ?_
  simp [Signatory.XListed, Signatory.toP]

theorem xlist_affirmation (v : Int) (x : Affirmation) : LsC v .affirmation X.affirmation x (Affirmation.XListed v x) := by
  refine (ls_struct (
    la_calm (le_calm rfl) <|
    la_elem (lc_nlist (q := .signatories) rfl rfl rfl (fun _ => rfl) (fun y _ => xlist_signatory v y)) <|
    la_skip <|
    la_nil)).congr ?_
  simp [Affirmation.XListed, Affirmation.toP]

theorem xlist_declarations (v : Int) (x : Declarations) : LsC v .declarations X.declarations x (Declarations.XListed v x) := by
  refine (ls_struct (
    la_calm (le_calm rfl) <|
    la_calm (le_calm rfl) <|
    la_elem (lc_nlist (q := .claims) rfl rfl rfl (fun _ => rfl) (fun y _ => xlist_claim v y)) <|
    la_elem (lc_nlist (q := .evidence) rfl rfl rfl (fun _ => rfl) (fun y _ => xlist_declarationEvidence v y)) <|
    la_elem (lc_ptr rfl rfl (fun y _ => xlist_targets v y)) <|
    la_elem (lc_ptr rfl rfl (fun y _ => xlist_affirmation v y)) <|
    la_skip <|
    la_nil)).congr ?_
  simp [Declarations.XListed, Declarations.toP]

theorem xlist_patent (v : Int) (x : Patent) : LsC v .patent X.patent x (Patent.XListed v x) := by
  refine (ls_struct (
    la_attr_any rfl <|
    la_calm (le_calm rfl) <|
    la_calm (le_calm rfl) <|
    la_calm (le_calm rfl) <|
    la_calm (le_calm rfl) <|
    la_calm (le_calm rfl) <|
    la_calm (le_calm rfl) <|
    la_calm (le_calm rfl) <|
    la_calm (le_calm rfl) <|
    la_calm (le_calm rfl) <|
    la_calm (le_calm rfl) <|
    la_elem le_plain <|
    la_calm (le_calm rfl) <|
    la_elem (lc_nlist (q := .externalReferences) rfl rfl rfl (fun _ => rfl) (fun y _ => xlist_externalReference v y)) <|
    la_nil)).congr ?_
  simp [Patent.XListed, Patent.toP]

theorem xlist_patentFamily (v : Int) (x : PatentFamily) : LsC v .patentFamily X.patentFamily x (PatentFamily.XListed v x) := by
  refine (ls_struct (
    la_attr_any rfl <|
    la_calm (le_calm rfl) <|
    la_calm (le_calm rfl) <|
    la_calm (le_calm rfl) <|
    la_elem (lc_nlist (q := .externalReferences) rfl rfl rfl (fun _ => rfl) (fun y _ => xlist_externalReference v y)) <|
    la_nil)).congr ?_
  simp [PatentFamily.XListed, PatentFamily.toP]

theorem xlist_standardRequirement (v : Int) (x : StandardRequirement) : LsC v .requirement X.standardRequirement x (StandardRequirement.XListed v x) := by
  refine (ls_struct (
    la_attr_any rfl <|
    la_calm (le_calm rfl) <|
    la_calm (le_calm rfl) <|
    la_calm (le_calm rfl) <|
    la_calm (le_calm rfl) <|
    la_calm (le_calm rfl) <|
    la_calm (le_calm rfl) <|
    la_calm (le_calm rfl) <|
    la_elem (lc_nlist (q := .externalReferences) rfl rfl rfl (fun _ => rfl) (fun y _ => xlist_externalReference v y)) <|
    la_nil)).congr ?_
  simp [StandardRequirement.XListed, StandardRequirement.toP]

theorem xlist_standardDefinition (v : Int) (x : StandardDefinition) : LsC v .standard X.standardDefinition x (StandardDefinition.XListed v x) := by
  refine (ls_struct (
    la_attr_any rfl <|
    la_calm (le_calm rfl) <|
    la_calm (le_calm rfl) <|
    la_calm (le_calm rfl) <|
    la_calm (le_calm rfl) <|
    la_elem (lc_nlist (q := .standardRequirements) rfl rfl rfl (fun _ => rfl) (fun y _ => xlist_standardRequirement v y)) <|
    la_calm (le_calm rfl) <|
    la_elem (lc_nlist (q := .externalReferences) rfl rfl rfl (fun _ => rfl) (fun y _ => xlist_externalReference v y)) <|
    la_skip <|
    la_nil)).congr ?_
  simp [StandardDefinition.XListed, StandardDefinition.toP]

theorem ls_enclosed {v : Int} {p q : XPlace} {n : String} {α : Type} {f : α → Option (List Xml)} {a : PSlice α} {S : α → Prop}
    {ks : List Xml} (hn : p.enumElems.lookup n = none) (hq : p.child n = some q)
    (h : ∀ y ∈ a.elems, ∀ k, f y = some k → ((∀ x ∈ k, KidOk v q x) ↔ S y)) (hk : X.enclosed n f a = some ks) :
    (∀ y ∈ ks, KidOk v p y) ↔ ∀ y ∈ a.elems, S y := by
  cases a with
  | nil => cases hk; simp [PSlice.elems]
  | nilSlice =>
    cases hk
    simp only [List.mem_singleton, forall_eq]
    rw [kid_enclosed hn hq]
    simp [PSlice.elems]
  | list xs =>
    obtain ⟨l, hl, rfl⟩ := Option.map_eq_some_iff.1 hk
    simp only [List.mem_singleton, forall_eq]
    rw [kid_enclosed hn hq]
    exact encEach_all hl h

theorem xlist_patentChoice (v : Int) {c : PatentChoice} {k : List Xml} (h : X.patentChoiceEnc c = some k) :
    (∀ y ∈ k, KidOk v .definitionsTypePatents y) ↔ PatentChoice.XListed v c := by
  simp only [X.patentChoiceEnc] at h
  split at h
  · rename_i l hl
    obtain ⟨o, ho, rfl⟩ := Option.map_eq_some_iff.mp h
    have := one (p := .definitionsTypePatents) (m := "patent") rfl rfl rfl (xlist_patent v l) ho
    simpa [PatentChoice.XListed, hl, Option.mem_toList] using this
  · rename_i l hl hf
    obtain ⟨o, ho, rfl⟩ := Option.map_eq_some_iff.mp h
    have := one (p := .definitionsTypePatents) (m := "patentFamily") rfl rfl rfl (xlist_patentFamily v l) ho
    simpa [PatentChoice.XListed, hl, hf, Option.mem_toList] using this
  · rename_i hl hf
    cases h
    simp [PatentChoice.XListed, hl, hf]

theorem xlist_definitions (v : Int) (x : Definitions) : LsC v .definitions X.definitions x (Definitions.XListed v x) := by
  intro n o ho
  simp only [X.definitions] at ho
  split at ho
  · rename_i ss ps hs hp
    cases ho
    simp only [Option.mem_def, Option.some.injEq, forall_eq']
    rw [xlisted_iff]
    simp only [List.not_mem_nil, false_implies, implies_true, true_and, List.mem_append, or_imp, forall_and, Definitions.XListed]
    refine and_congr (ls_enclosed (q := .standards) rfl rfl (fun y _ k hk => ?_) hs)
      (ls_enclosed (q := .definitionsTypePatents) rfl rfl (fun y _ k hk => xlist_patentChoice v hk) hp)
    obtain ⟨o, ho, rfl⟩ := Option.map_eq_some_iff.mp hk
    have := one (p := .standards) (m := "standard") rfl rfl rfl (xlist_standardDefinition v y) ho
    simpa [Option.mem_toList] using this
  · cases ho


theorem xlist_resourceReferenceChoice (v : Int) (x : ResourceReferenceChoice) : LsC v .resourceReference X.resourceReferenceChoice x (ResourceReferenceChoice.XListed v x) := by
  refine (ls_struct (
    la_calm (le_calm rfl) <|
    la_elem (lc_ptr rfl rfl (fun y _ => xlist_externalReference v y)) <|
    la_nil)).congr ?_
  simp [ResourceReferenceChoice.XListed, ResourceReferenceChoice.toP]

theorem xlist_taskInput (v : Int) (x : TaskInput) : LsC v .input X.taskInput x (TaskInput.XListed v x) := by
  refine (ls_struct (
    la_elem (lc_ptr rfl rfl (fun y _ => xlist_resourceReferenceChoice v y)) <|
    la_calm (le_calm rfl) <|
    la_calm (le_calm rfl) <|
    la_elem (lc_ptr rfl rfl (fun y _ => xlist_attachedText v y)) <|
    la_elem (lc_ptr rfl rfl (fun y _ => xlist_resourceReferenceChoice v y)) <|
    la_elem (lc_ptr rfl rfl (fun y _ => xlist_resourceReferenceChoice v y)) <|
    la_calm (le_calm rfl) <|
    la_nil)).congr ?_
  simp [TaskInput.XListed, TaskInput.toP]

theorem xlist_taskOutput (v : Int) (x : TaskOutput) : LsC v .output X.taskOutput x (TaskOutput.XListed v x) := by
  refine (ls_struct (
    la_elem (lc_ptr rfl rfl (fun y _ => xlist_resourceReferenceChoice v y)) <|
    la_calm (le_calm rfl) <|
    la_calm (le_calm rfl) <|
    la_elem (lc_ptr rfl rfl (fun y _ => xlist_attachedText v y)) <|
    la_elem le_plain_oe <|
    la_elem (lc_ptr rfl rfl (fun y _ => xlist_resourceReferenceChoice v y)) <|
    la_elem (lc_ptr rfl rfl (fun y _ => xlist_resourceReferenceChoice v y)) <|
    la_calm (le_calm rfl) <|
    la_nil)).congr ?_
  simp [TaskOutput.XListed, TaskOutput.toP]

theorem xlist_event (v : Int) (x : Event) : LsC v .event X.event x (Event.XListed v x) := by
  refine (ls_struct (
    la_calm (le_calm rfl) <|
    la_calm (le_calm rfl) <|
    la_calm (le_calm rfl) <|
    la_elem (lc_ptr rfl rfl (fun y _ => xlist_attachedText v y)) <|
    la_elem (lc_ptr rfl rfl (fun y _ => xlist_resourceReferenceChoice v y)) <|
    la_elem (lc_ptr rfl rfl (fun y _ => xlist_resourceReferenceChoice v y)) <|
    la_calm (le_calm rfl) <|
    la_nil)).congr ?_
  simp [Event.XListed, Event.toP]

theorem xlist_taskTrigger (v : Int) (x : TaskTrigger) : LsC v .trigger X.taskTrigger x (TaskTrigger.XListed v x) := by
  refine (ls_struct (
    la_attr_any rfl <|
    la_calm (le_calm rfl) <|
    la_calm (le_calm rfl) <|
    la_calm (le_calm rfl) <|
    la_elem (lc_nlist (q := .resourceReferences) rfl rfl rfl (fun _ => rfl) (fun y _ => xlist_resourceReferenceChoice v y)) <|
    la_elem le_plain_oe <|
    la_elem (lc_ptr rfl rfl (fun y _ => xlist_event v y)) <|
    la_calm (le_calm rfl) <|
    la_calm (le_calm rfl) <|
    la_elem (lc_nlist (q := .taskTypeInputs) rfl rfl rfl (fun _ => rfl) (fun y _ => xlist_taskInput v y)) <|
    la_elem (lc_nlist (q := .taskTypeOutputs) rfl rfl rfl (fun _ => rfl) (fun y _ => xlist_taskOutput v y)) <|
    la_calm (le_calm rfl) <|
    la_nil)).congr ?_
  simp [TaskTrigger.XListed, TaskTrigger.toP]

theorem xlist_volume (v : Int) (x : Volume) : LsC v .volume X.volume x (Volume.XListed v x) := by
  refine (ls_struct (
    la_calm (le_calm rfl) <|
    la_calm (le_calm rfl) <|
    la_elem le_plain_oe <|
    la_calm (le_calm rfl) <|
    la_calm (le_calm rfl) <|
    la_calm (le_calm rfl) <|
    la_calm (le_calm rfl) <|
    la_calm (le_calm rfl) <|
    la_nil)).congr ?_
  simp [Volume.XListed, Volume.toP]

theorem xlist_taskWorkspace (v : Int) (x : TaskWorkspace) : LsC v .workspace X.taskWorkspace x (TaskWorkspace.XListed v x) := by
  refine (ls_struct (
    la_attr_any rfl <|
    la_calm (le_calm rfl) <|
    la_calm (le_calm rfl) <|
    la_calm (le_calm rfl) <|
    la_calm (le_calm rfl) <|
    la_elem (lc_nlist (q := .resourceReferences) rfl rfl rfl (fun _ => rfl) (fun y _ => xlist_resourceReferenceChoice v y)) <|
    la_elem le_plain_oe <|
    la_calm (le_calm rfl) <|
    la_calm (le_calm rfl) <|
    la_calm (le_calm rfl) <|
    la_elem (lc_ptr rfl rfl (fun y _ => xlist_volume v y)) <|
    la_calm (le_calm rfl) <|
    la_nil)).congr ?_
  simp [TaskWorkspace.XListed, TaskWorkspace.toP]

theorem xlist_task (v : Int) (x : Task) : LsC v .task X.task x (Task.XListed v x) := by
  refine (ls_struct (
    la_attr_any rfl <|
    la_calm (le_calm rfl) <|
    la_calm (le_calm rfl) <|
    la_calm (le_calm rfl) <|
    la_calm (le_calm rfl) <|
    la_elem (lc_nlist (q := .resourceReferences) rfl rfl rfl (fun _ => rfl) (fun y _ => xlist_resourceReferenceChoice v y)) <|
    la_elem (le_nlist (q := .taskTypeTaskTypes) rfl rfl) <|
    la_elem (lc_ptr rfl rfl (fun y _ => xlist_taskTrigger v y)) <|
    la_calm (le_calm rfl) <|
    la_elem (lc_nlist (q := .taskTypeInputs) rfl rfl rfl (fun _ => rfl) (fun y _ => xlist_taskInput v y)) <|
    la_elem (lc_nlist (q := .taskTypeOutputs) rfl rfl rfl (fun _ => rfl) (fun y _ => xlist_taskOutput v y)) <|
    la_calm (le_calm rfl) <|
    la_calm (le_calm rfl) <|
    la_elem (lc_nlist (q := .workspaces) rfl rfl rfl (fun _ => rfl) (fun y _ => xlist_taskWorkspace v y)) <|
    la_calm (le_calm rfl) <|
    la_nil)).congr ?_
  simp [Task.XListed, Task.toP]

theorem xlist_workflow (v : Int) (x : Workflow) : LsC v .workflow X.workflow x (Workflow.XListed v x) := by
  refine (ls_struct (
    la_attr_any rfl <|
    la_calm (le_calm rfl) <|
    la_calm (le_calm rfl) <|
    la_calm (le_calm rfl) <|
    la_elem (lc_nlist (q := .resourceReferences) rfl rfl rfl (fun _ => rfl) (fun y _ => xlist_resourceReferenceChoice v y)) <|
    la_elem (lc_nlist (q := .tasks) rfl rfl rfl (fun _ => rfl) (fun y _ => xlist_task v y)) <|
    la_calm (le_calm rfl) <|
    la_elem (le_nlist (q := .taskTypeTaskTypes) rfl rfl) <|
    la_elem (lc_ptr rfl rfl (fun y _ => xlist_taskTrigger v y)) <|
    la_calm (le_calm rfl) <|
    la_elem (lc_nlist (q := .taskTypeInputs) rfl rfl rfl (fun _ => rfl) (fun y _ => xlist_taskInput v y)) <|
    la_elem (lc_nlist (q := .taskTypeOutputs) rfl rfl rfl (fun _ => rfl) (fun y _ => xlist_taskOutput v y)) <|
    la_calm (le_calm rfl) <|
    la_calm (le_calm rfl) <|
    la_elem (lc_nlist (q := .workspaces) rfl rfl rfl (fun _ => rfl) (fun y _ => xlist_taskWorkspace v y)) <|
    la_calm (le_calm rfl) <|
    la_calm (le_calm rfl) <|
    la_nil)).congr ?_
  simp [Workflow.XListed, Workflow.toP]

theorem xlist_formula (v : Int) (x : Formula) : LsC v .formula X.formula x (Formula.XListed v x) := by
  refine (ls_struct (
    la_attr_any rfl <|
    la_elem (lc_nlist (q := .components) rfl rfl rfl (fun _ => rfl) (fun y _ => xlist_component v y)) <|
    la_elem (lc_nlist (q := .services) rfl rfl rfl (fun _ => rfl) (fun y _ => xlist_service v y)) <|
    la_elem (lc_nlist (q := .workflows) rfl rfl rfl (fun _ => rfl) (fun y _ => xlist_workflow v y)) <|
    la_calm (le_calm rfl) <|
    la_nil)).congr ?_
  simp [Formula.XListed, Formula.toP]

theorem xlist_lifecycle (v : Int) (x : Lifecycle) : LsC v .lifecyclesLifecycle X.lifecycle x (Lifecycle.XListed v x) := by
  refine (ls_struct (
    la_calm (le_calm rfl) <|
    la_elem le_plain_oe <|
    la_calm (le_calm rfl) <|
    la_nil)).congr ?_
  simp [Lifecycle.XListed, Lifecycle.toP]

theorem xlist_tool (v : Int) (x : Tool) : LsC v .tool X.tool x (Tool.XListed v x) := by
  refine (ls_struct (
    la_calm (le_calm rfl) <|
    la_calm (le_calm rfl) <|
    la_calm (le_calm rfl) <|
    la_elem (lc_nlist (q := .toolTypeHashes) rfl rfl rfl (fun _ => rfl) (fun y _ => xlist_hash v y)) <|
    la_elem (lc_nlist (q := .externalReferences) rfl rfl rfl (fun _ => rfl) (fun y _ => xlist_externalReference v y)) <|
    la_nil)).congr ?_
  simp [Tool.XListed, Tool.toP]

theorem xlist_toolsChoice (v : Int) (x : ToolsChoice) : LsC v .tools X.toolsChoice x (ToolsChoice.XListed v x) := by
  have H : ∀ n o p, (XCodec.struct X.toolsChoiceFields id id).enc n p = some o → ((∀ y ∈ o, XListed v .tools y) ↔
      (∀ y ∈ p.1.elems, Tool.XListed v y) ∧ (∀ y ∈ p.2.1.elems, Component.XListed v y) ∧
        ∀ y ∈ p.2.2.1.elems, Service.XListed v y) := by
    intro n o p ho
    have := ls_struct (v := v) (p := .tools) (F := X.toolsChoiceFields) (toP := _root_.id) (ofP := _root_.id)
      (la_elem (lc_list rfl rfl (fun _ => rfl) (fun y _ => xlist_tool v y)) <|
      la_elem (lc_nlist (q := .components) rfl rfl rfl (fun _ => rfl) (fun y _ => xlist_component v y)) <|
      la_elem (lc_nlist (q := .services) rfl rfl rfl (fun _ => rfl) (fun y _ => xlist_service v y)) <| la_nil) n o ho
    rw [this]
    simp only [id, and_true]
  have nn : ∀ {α : Type} (p : PSlice α), p.isNil = true ↔ p = .nil := by
    intro α p; cases p <;> simp [PSlice.isNil]
  intro n o ho
  simp only [X.toolsChoice] at ho
  simp only [ToolsChoice.XListed]
  split at ho
  · cases ho
  · rename_i h1
    simp only [nn] at h1
    split at ho
    · rename_i ht
      simp only [nn] at ht
      have hc : x.components = .nil := Classical.byContradiction fun h => h1 ⟨ht, .inl h⟩
      have hs : x.services = .nil := Classical.byContradiction fun h => h1 ⟨ht, .inr h⟩
      rw [H n o _ ho, hc, hs]
    · rename_i ht
      simp only [nn] at ht
      have ht : x.tools = .nil := Classical.byContradiction ht
      split at ho
      · rw [H n o _ ho, ht]
      · rename_i hcs
        simp only [nn, not_or, not_not] at hcs
        cases ho
        simp [ht, hcs, PSlice.elems]


theorem xlist_distributionConstraints (v : Int) (x : DistributionConstraints) : LsC v .distributionConstraints X.distributionConstraints x (DistributionConstraints.XListed v x) := by
  refine (ls_struct (
    la_elem le_plain_oe <|
    la_nil)).congr ?_
  simp [DistributionConstraints.XListed, DistributionConstraints.toP]

theorem xlist_metadata (v : Int) (x : Metadata) : LsC v .metadata X.metadata x (Metadata.XListed v x) := by
  refine (ls_struct (
    la_calm (le_calm rfl) <|
    la_elem (lc_nlist (q := .lifecycles) rfl rfl rfl (fun _ => rfl) (fun y _ => xlist_lifecycle v y)) <|
    la_elem (lc_ptr rfl rfl (fun y _ => xlist_toolsChoice v y)) <|
    la_calm (le_calm rfl) <|
    la_elem (lc_ptr rfl rfl (fun y _ => xlist_component v y)) <|
    la_calm (le_calm rfl) <|
    la_calm (le_calm rfl) <|
    la_calm (le_calm rfl) <|
    la_elem (lc_slice rfl rfl (xlist_licenses v _)) <|
    la_calm (le_calm rfl) <|
    la_elem (lc_ptr rfl rfl (fun y _ => xlist_distributionConstraints v y)) <|
    la_nil)).congr ?_
  simp [Metadata.XListed, Metadata.toP]

theorem xlist_proofOfConcept (v : Int) (x : ProofOfConcept) : LsC v .proofOfConcept X.proofOfConcept x (ProofOfConcept.XListed v x) := by
  refine (ls_struct (
    la_calm (le_calm rfl) <|
    la_calm (le_calm rfl) <|
    la_elem (lc_nlist (q := .proofOfConceptSupportingMaterial) rfl rfl rfl (fun _ => rfl) (fun y _ => xlist_attachedText v y)) <|
    la_nil)).congr ?_
  simp [ProofOfConcept.XListed, ProofOfConcept.toP]

theorem xlist_vulnerabilityAnalysis (v : Int) (x : VulnerabilityAnalysis) : LsC v .analysis X.vulnerabilityAnalysis x (VulnerabilityAnalysis.XListed v x) := by
  refine (ls_struct (
    la_elem le_plain_oe <|
    la_elem le_plain_oe <|
    la_elem (le_nlist (q := .analysisResponses) rfl rfl) <|
    la_calm (le_calm rfl) <|
    la_calm (le_calm rfl) <|
    la_calm (le_calm rfl) <|
    la_nil)).congr ?_
  simp [VulnerabilityAnalysis.XListed, VulnerabilityAnalysis.toP]

theorem xlist_vulnerabilityRating (v : Int) (x : VulnerabilityRating) : LsC v .rating X.vulnerabilityRating x (VulnerabilityRating.XListed v x) := by
  refine (ls_struct (
    la_calm (le_calm rfl) <|
    la_calm (le_calm rfl) <|
    la_elem le_plain_oe <|
    la_elem le_plain_oe <|
    la_calm (le_calm rfl) <|
    la_calm (le_calm rfl) <|
    la_nil)).congr ?_
  simp [VulnerabilityRating.XListed, VulnerabilityRating.toP]

theorem xlist_vulnerability (v : Int) (x : Vulnerability) : LsC v .vulnerability X.vulnerability x (Vulnerability.XListed v x) := by
  refine (ls_struct (
    la_attr_any rfl <|
    la_calm (le_calm rfl) <|
    la_calm (le_calm rfl) <|
    la_calm (le_calm rfl) <|
    la_elem (lc_nlist (q := .ratings) rfl rfl rfl (fun _ => rfl) (fun y _ => xlist_vulnerabilityRating v y)) <|
    la_calm (le_calm rfl) <|
    la_calm (le_calm rfl) <|
    la_calm (le_calm rfl) <|
    la_calm (le_calm rfl) <|
    la_calm (le_calm rfl) <|
    la_elem (lc_ptr rfl rfl (fun y _ => xlist_proofOfConcept v y)) <|
    la_calm (le_calm rfl) <|
    la_calm (le_calm rfl) <|
    la_calm (le_calm rfl) <|
    la_calm (le_calm rfl) <|
    la_calm (le_calm rfl) <|
    la_calm (le_calm rfl) <|
    la_elem (lc_ptr rfl rfl (fun y _ => xlist_toolsChoice v y)) <|
    la_elem (lc_ptr rfl rfl (fun y _ => xlist_vulnerabilityAnalysis v y)) <|
    la_elem (lc_nlist (q := .affects) rfl rfl rfl (fun _ => rfl) (fun y _ => xlist_affects v y)) <|
    la_calm (le_calm rfl) <|
    la_nil)).congr ?_
  simp [Vulnerability.XListed, Vulnerability.toP]

theorem xlist_bom (v : Int) (x : BOM) : LsC v .bom X.bom x (BOM.XListed v x) := by
  refine (ls_struct (
    la_skip <|
    la_attr_any rfl <|
    la_skip <|
    la_skip <|
    la_skip <|
    la_attr_any rfl <|
    la_attr_any rfl <|
    la_elem (lc_ptr rfl rfl (fun y _ => xlist_metadata v y)) <|
    la_elem (lc_nlist (q := .components) rfl rfl rfl (fun _ => rfl) (fun y _ => xlist_component v y)) <|
    la_elem (lc_nlist (q := .services) rfl rfl rfl (fun _ => rfl) (fun y _ => xlist_service v y)) <|
    la_elem (lc_nlist (q := .externalReferences) rfl rfl rfl (fun _ => rfl) (fun y _ => xlist_externalReference v y)) <|
    la_calm (le_calm rfl) <|
    la_elem (lc_nlist (q := .compositions) rfl rfl rfl (fun _ => rfl) (fun y _ => xlist_composition v y)) <|
    la_calm (le_calm rfl) <|
    la_elem (lc_nlist (q := .vulnerabilities) rfl rfl rfl (fun _ => rfl) (fun y _ => xlist_vulnerability v y)) <|
    la_elem (lc_nlist (q := .annotations) rfl rfl rfl (fun _ => rfl) (fun y _ => xlist_annotation v y)) <|
    la_elem (lc_nlist (q := .formulation) rfl rfl rfl (fun _ => rfl) (fun y _ => xlist_formula v y)) <|
    la_elem (lc_ptr rfl rfl (fun y _ => xlist_declarations v y)) <|
    la_elem (lc_ptr rfl rfl (fun y _ => xlist_definitions v y)) <|
    la_calm (le_calm rfl) <|
    la_skip <|
    la_nil)).congr ?_
  simp [BOM.XListed, BOM.toP]

end Verif
