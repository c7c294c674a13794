import Verif.Spec.JsonExclusive
import Verif.Json.ExclusiveLaws
import Verif.Proofs.Gob
import Verif.Proofs.CompleteConverted
import Verif.Proofs.FitsConverted

/-!
# The deep copy writes no second alternative beside one that the JSON schemas exclude

GENERATED by `tools/gen_jexclusive_copy.py`; do not edit by hand.
-/

namespace Verif

set_option linter.unusedSectionVars false
set_option linter.unusedVariables false

theorem copy_ne_none {α : Type} {f : α → α} {o : Option α} (h : o.map f ≠ none) : o ≠ none := by
  rintro rfl
  exact h rfl

theorem copy_gob_ne_none {o : Option String} (h : Gob.string o ≠ none) : o ≠ none := by
  rintro rfl
  exact h rfl

theorem copy_ne_nil {α : Type} {f : α → α} {p : PSlice α} (h : p.copyWith f ≠ .nil) : p ≠ .nil := by
  rintro rfl
  exact h rfl

variable (v : Int)

theorem AffectedVersions.exclusive_copy {x : AffectedVersions} (h : x.Exclusive v) : x.copy.Exclusive v := by
  exact fun ⟨a0, a1⟩ => h ⟨(by first | exact a0 | exact copy_ne_none a0 | exact copy_ne_nil a0 | exact copy_gob_ne_none a0), (by first | exact a1 | exact copy_ne_none a1 | exact copy_ne_nil a1 | exact copy_gob_ne_none a1)⟩

theorem Affects.exclusive_copy {x : Affects} (h : x.Exclusive v) : x.copy.Exclusive v := by
  exact PSlice.copyWith_all (fun _ => AffectedVersions.exclusive_copy v) h

theorem ComponentDataGovernanceResponsibleParty.exclusive_copy {x : ComponentDataGovernanceResponsibleParty} (h : x.Exclusive v) : x.copy.Exclusive v := by
  exact fun ⟨a0, a1⟩ => h ⟨(by first | exact a0 | exact copy_ne_none a0 | exact copy_ne_nil a0 | exact copy_gob_ne_none a0), (by first | exact a1 | exact copy_ne_none a1 | exact copy_ne_nil a1 | exact copy_gob_ne_none a1)⟩

theorem DataGovernance.exclusive_copy {x : DataGovernance} (h : x.Exclusive v) : x.copy.Exclusive v := by
  obtain ⟨h0, h1, h2⟩ := h
  exact ⟨PSlice.copyWith_all (fun _ => ComponentDataGovernanceResponsibleParty.exclusive_copy v) h0,
    PSlice.copyWith_all (fun _ => ComponentDataGovernanceResponsibleParty.exclusive_copy v) h1,
    PSlice.copyWith_all (fun _ => ComponentDataGovernanceResponsibleParty.exclusive_copy v) h2⟩

theorem ComponentData.exclusive_copy {x : ComponentData} (h : x.Exclusive v) : x.copy.Exclusive v := by
  exact Option.map_all (fun _ => DataGovernance.exclusive_copy v) h

theorem OrganizationalEntityOrContact.exclusive_copy {x : OrganizationalEntityOrContact} (h : x.Exclusive v) : x.copy.Exclusive v := by
  exact fun ⟨a0, a1⟩ => h ⟨(by first | exact a0 | exact copy_ne_none a0 | exact copy_ne_nil a0 | exact copy_gob_ne_none a0), (by first | exact a1 | exact copy_ne_none a1 | exact copy_ne_nil a1 | exact copy_gob_ne_none a1)⟩

theorem Licensing.exclusive_copy {x : Licensing} (h : x.Exclusive v) : x.copy.Exclusive v := by
  obtain ⟨h0, h1, h2⟩ := h
  exact ⟨Option.map_all (fun _ => OrganizationalEntityOrContact.exclusive_copy v) h0,
    Option.map_all (fun _ => OrganizationalEntityOrContact.exclusive_copy v) h1,
    Option.map_all (fun _ => OrganizationalEntityOrContact.exclusive_copy v) h2⟩

theorem License.exclusive_copy {x : License} (h : x.Exclusive v) : x.copy.Exclusive v := by
  obtain ⟨h0, h1⟩ := h
  exact ⟨fun ⟨a0, a1⟩ => h0 ⟨(by first | exact a0 | exact copy_ne_none a0 | exact copy_ne_nil a0 | exact copy_gob_ne_none a0), (by first | exact a1 | exact copy_ne_none a1 | exact copy_ne_nil a1 | exact copy_gob_ne_none a1)⟩,
    Option.map_all (fun _ => Licensing.exclusive_copy v) h1⟩

theorem LicenseChoice.exclusive_copy {x : LicenseChoice} (h : x.Exclusive v) : x.copy.Exclusive v := by
  obtain ⟨h0, h1, h2, h3, h4, h5, h6, h7⟩ := h
  exact ⟨fun hv => fun ⟨a0, a1⟩ => (h0 hv) ⟨(by first | exact a0 | exact copy_ne_none a0 | exact copy_ne_nil a0 | exact copy_gob_ne_none a0), (by first | exact a1 | exact copy_ne_none a1 | exact copy_ne_nil a1 | exact copy_gob_ne_none a1)⟩,
    fun hv => fun ⟨a0, a1⟩ => (h1 hv) ⟨(by first | exact a0 | exact copy_ne_none a0 | exact copy_ne_nil a0 | exact copy_gob_ne_none a0), (by first | exact a1 | exact copy_ne_none a1 | exact copy_ne_nil a1 | exact copy_gob_ne_none a1)⟩,
    fun ⟨a0, a1⟩ => h2 ⟨(by first | exact a0 | exact copy_ne_none a0 | exact copy_ne_nil a0 | exact copy_gob_ne_none a0), (by first | exact a1 | exact copy_ne_none a1 | exact copy_ne_nil a1 | exact copy_gob_ne_none a1)⟩,
    fun hv => fun ⟨a0, a1⟩ => (h3 hv) ⟨(by first | exact a0 | exact copy_ne_none a0 | exact copy_ne_nil a0 | exact copy_gob_ne_none a0), (by first | exact a1 | exact copy_ne_none a1 | exact copy_ne_nil a1 | exact copy_gob_ne_none a1)⟩,
    fun hv => fun ⟨a0, a1⟩ => (h4 hv) ⟨(by first | exact a0 | exact copy_ne_none a0 | exact copy_ne_nil a0 | exact copy_gob_ne_none a0), (by first | exact a1 | exact copy_ne_none a1 | exact copy_ne_nil a1 | exact copy_gob_ne_none a1)⟩,
    fun hv => fun ⟨a0, a1⟩ => (h5 hv) ⟨(by first | exact a0 | exact copy_ne_none a0 | exact copy_ne_nil a0 | exact copy_gob_ne_none a0), (by first | exact a1 | exact copy_ne_none a1 | exact copy_ne_nil a1 | exact copy_gob_ne_none a1)⟩,
    Option.map_all (fun _ => License.exclusive_copy v) h6,
    Option.map_all (fun _ => Licensing.exclusive_copy v) h7⟩

theorem licenses_exclusive_copy {p : PSlice LicenseChoice} (h : LicensesExclusive v p) :
    LicensesExclusive v (p.copyWith LicenseChoice.copy) := by
  refine ⟨fun h5 h6 => ?_, PSlice.copyWith_all (fun _ => LicenseChoice.exclusive_copy v) h.2⟩
  rw [FitsCopied.elems, List.length_map]
  rcases h.1 h5 h6 with h | h
  · refine .inl fun y hy => ?_
    obtain ⟨z, hz, rfl⟩ := List.mem_map.1 hy
    exact h z hz
  · exact .inr h

theorem Evidence.exclusive_copy {x : Evidence} (h : x.Exclusive v) : x.copy.Exclusive v := by
  exact licenses_exclusive_copy v h

theorem JSFSignature.exclusive_copy {x : JSFSignature} (h : x.Exclusive v) : x.copy.Exclusive v := by
  exact fun ⟨a0, a1⟩ => h ⟨(by first | exact a0 | exact copy_ne_none a0 | exact copy_ne_nil a0 | exact copy_gob_ne_none a0), (by first | exact a1 | exact copy_ne_none a1 | exact copy_ne_nil a1 | exact copy_gob_ne_none a1)⟩

theorem MLDatasetChoice.exclusive_copy {x : MLDatasetChoice} (h : x.Exclusive v) : x.copy.Exclusive v := by
  exact fun hr => Option.map_all (fun _ => ComponentData.exclusive_copy v) (h hr)

theorem MLModelParameters.exclusive_copy {x : MLModelParameters} (h : x.Exclusive v) : x.copy.Exclusive v := by
  exact PSlice.copyWith_all (fun _ => MLDatasetChoice.exclusive_copy v) h

theorem MLModelCard.exclusive_copy {x : MLModelCard} (h : x.Exclusive v) : x.copy.Exclusive v := by
  exact Option.map_all (fun _ => MLModelParameters.exclusive_copy v) h

theorem copyComponents_exclusive {p : PSlice Component} (hp : ∀ c ∈ p.elems, c.Exclusive v → c.copy.Exclusive v)
    (h : ExclusiveComponents v p) : ExclusiveComponents v (copyComponents p) := by
  rw [exclusiveComponents_iff] at h ⊢
  rw [copyComponents_eq]
  intro c hc
  obtain ⟨d, hd, rfl⟩ := PSlice.mem_copyWith hc
  exact hp d hd (h d hd)

theorem Component.exclusive_copy {x : Component} : x.Exclusive v → x.copy.Exclusive v := by
  induction x using Component.induct with
  | h c ih =>
    intro h
    have hc : ExclusiveComponents v c.components → ExclusiveComponents v (copyComponents c.components) :=
      copyComponents_exclusive v fun d hd => ih d (by simp [Component.children, hd])
    have hp : ExclusivePedigreeOpt v c.pedigree → ExclusivePedigreeOpt v (copyPedigreeOpt c.pedigree) := by
      cases hp : c.pedigree with
      | none => simp [copyPedigreeOpt, ExclusivePedigreeOpt]
      | some p =>
        simp only [copyPedigreeOpt, ExclusivePedigreeOpt]
        have ih' : ∀ d ∈ p.relatives, d.Exclusive v → d.copy.Exclusive v :=
          fun d hd => ih d (by simp [Component.children, hp, hd])
        intro hw
        cases p
        simp only [copyPedigree, ExclusivePedigree] at hw ⊢
        obtain ⟨w0, w1, w2⟩ := hw
        exact ⟨copyComponents_exclusive v (fun d hd => ih' d (by simp [Pedigree.relatives, hd])) w0, copyComponents_exclusive v (fun d hd => ih' d (by simp [Pedigree.relatives, hd])) w1, copyComponents_exclusive v (fun d hd => ih' d (by simp [Pedigree.relatives, hd])) w2⟩
    cases c
    simp only at hc hp
    simp only [Component.copy, Component.Exclusive] at h ⊢
    obtain ⟨h0, h1, h2, h3, h4, h5, h6, h7⟩ := h
    exact ⟨h0, licenses_exclusive_copy v h1, hp h2, hc h3, Option.map_all (fun _ => Evidence.exclusive_copy v) h4,
      Option.map_all (fun _ => MLModelCard.exclusive_copy v) h5,
      PSlice.copyWith_all (fun _ => ComponentData.exclusive_copy v) h6,
      Option.map_all (fun _ => JSFSignature.exclusive_copy v) h7⟩

theorem DataClassification.exclusive_copy {x : DataClassification} (h : x.Exclusive v) : x.copy.Exclusive v := by
  exact Option.map_all (fun _ => DataGovernance.exclusive_copy v) h

theorem Service.exclusive_copy {x : Service} : x.Exclusive v → x.copy.Exclusive v := by
  induction x using Service.induct with
  | h c ih =>
    intro h
    have hc : ExclusiveServices v c.services → ExclusiveServices v (copyServices c.services) := by
      rw [exclusiveServices_iff, exclusiveServices_iff, copyServices_eq]
      intro h d hd
      obtain ⟨e, he, rfl⟩ := PSlice.mem_copyWith hd
      exact ih e (by simp [Service.children, he]) (h e he)
    cases c
    simp only at hc
    simp only [Service.copy, Service.Exclusive] at h ⊢
    obtain ⟨h0, h1, h2, h3⟩ := h
    exact ⟨PSlice.copyWith_all (fun _ => DataClassification.exclusive_copy v) h0, licenses_exclusive_copy v h1, hc h2,
      Option.map_all (fun _ => JSFSignature.exclusive_copy v) h3⟩

theorem Annotator.exclusive_copy {x : Annotator} (h : x.Exclusive v) : x.copy.Exclusive v := by
  obtain ⟨h0, h1, h2, h3, h4, h5, h6, h7⟩ := h
  exact ⟨fun ⟨a0, a1⟩ => h0 ⟨(by first | exact a0 | exact copy_ne_none a0 | exact copy_ne_nil a0 | exact copy_gob_ne_none a0), (by first | exact a1 | exact copy_ne_none a1 | exact copy_ne_nil a1 | exact copy_gob_ne_none a1)⟩,
    fun ⟨a0, a1⟩ => h1 ⟨(by first | exact a0 | exact copy_ne_none a0 | exact copy_ne_nil a0 | exact copy_gob_ne_none a0), (by first | exact a1 | exact copy_ne_none a1 | exact copy_ne_nil a1 | exact copy_gob_ne_none a1)⟩,
    fun ⟨a0, a1⟩ => h2 ⟨(by first | exact a0 | exact copy_ne_none a0 | exact copy_ne_nil a0 | exact copy_gob_ne_none a0), (by first | exact a1 | exact copy_ne_none a1 | exact copy_ne_nil a1 | exact copy_gob_ne_none a1)⟩,
    fun ⟨a0, a1⟩ => h3 ⟨(by first | exact a0 | exact copy_ne_none a0 | exact copy_ne_nil a0 | exact copy_gob_ne_none a0), (by first | exact a1 | exact copy_ne_none a1 | exact copy_ne_nil a1 | exact copy_gob_ne_none a1)⟩,
    fun ⟨a0, a1⟩ => h4 ⟨(by first | exact a0 | exact copy_ne_none a0 | exact copy_ne_nil a0 | exact copy_gob_ne_none a0), (by first | exact a1 | exact copy_ne_none a1 | exact copy_ne_nil a1 | exact copy_gob_ne_none a1)⟩,
    fun ⟨a0, a1⟩ => h5 ⟨(by first | exact a0 | exact copy_ne_none a0 | exact copy_ne_nil a0 | exact copy_gob_ne_none a0), (by first | exact a1 | exact copy_ne_none a1 | exact copy_ne_nil a1 | exact copy_gob_ne_none a1)⟩,
    Option.map_all (fun _ => Component.exclusive_copy v) h6,
    Option.map_all (fun _ => Service.exclusive_copy v) h7⟩

theorem Annotation.exclusive_copy {x : Annotation} (h : x.Exclusive v) : x.copy.Exclusive v := by
  obtain ⟨h0, h1⟩ := h
  exact ⟨Option.map_all (fun _ => Annotator.exclusive_copy v) h0,
    Option.map_all (fun _ => JSFSignature.exclusive_copy v) h1⟩

theorem Attestation.exclusive_copy {x : Attestation} (h : x.Exclusive v) : x.copy.Exclusive v := by
  exact Option.map_all (fun _ => JSFSignature.exclusive_copy v) h

theorem Composition.exclusive_copy {x : Composition} (h : x.Exclusive v) : x.copy.Exclusive v := by
  exact Option.map_all (fun _ => JSFSignature.exclusive_copy v) h

theorem Claim.exclusive_copy {x : Claim} (h : x.Exclusive v) : x.copy.Exclusive v := by
  exact Option.map_all (fun _ => JSFSignature.exclusive_copy v) h

theorem EvidenceData.exclusive_copy {x : EvidenceData} (h : x.Exclusive v) : x.copy.Exclusive v := by
  exact Option.map_all (fun _ => DataGovernance.exclusive_copy v) h

theorem DeclarationEvidence.exclusive_copy {x : DeclarationEvidence} (h : x.Exclusive v) : x.copy.Exclusive v := by
  obtain ⟨h0, h1⟩ := h
  exact ⟨PSlice.copyWith_all (fun _ => EvidenceData.exclusive_copy v) h0,
    Option.map_all (fun _ => JSFSignature.exclusive_copy v) h1⟩

theorem Targets.exclusive_copy {x : Targets} (h : x.Exclusive v) : x.copy.Exclusive v := by
  obtain ⟨h0, h1⟩ := h
  exact ⟨PSlice.copyWith_all (fun _ => Component.exclusive_copy v) h0,
    PSlice.copyWith_all (fun _ => Service.exclusive_copy v) h1⟩

theorem Signatory.exclusive_copy {x : Signatory} (h : x.Exclusive v) : x.copy.Exclusive v := by
  obtain ⟨h0, h1⟩ := h
  exact ⟨fun ⟨a0, a1, a2⟩ => h0 ⟨(by first | exact a0 | exact copy_ne_none a0 | exact copy_ne_nil a0 | exact copy_gob_ne_none a0), (by first | exact a1 | exact copy_ne_none a1 | exact copy_ne_nil a1 | exact copy_gob_ne_none a1), (by first | exact a2 | exact copy_ne_none a2 | exact copy_ne_nil a2 | exact copy_gob_ne_none a2)⟩,
    Option.map_all (fun _ => JSFSignature.exclusive_copy v) h1⟩

theorem Affirmation.exclusive_copy {x : Affirmation} (h : x.Exclusive v) : x.copy.Exclusive v := by
  obtain ⟨h0, h1⟩ := h
  exact ⟨PSlice.copyWith_all (fun _ => Signatory.exclusive_copy v) h0,
    Option.map_all (fun _ => JSFSignature.exclusive_copy v) h1⟩

theorem Declarations.exclusive_copy {x : Declarations} (h : x.Exclusive v) : x.copy.Exclusive v := by
  obtain ⟨h0, h1, h2, h3, h4, h5⟩ := h
  exact ⟨PSlice.copyWith_all (fun _ => Attestation.exclusive_copy v) h0,
    PSlice.copyWith_all (fun _ => Claim.exclusive_copy v) h1,
    PSlice.copyWith_all (fun _ => DeclarationEvidence.exclusive_copy v) h2,
    Option.map_all (fun _ => Targets.exclusive_copy v) h3,
    Option.map_all (fun _ => Affirmation.exclusive_copy v) h4,
    Option.map_all (fun _ => JSFSignature.exclusive_copy v) h5⟩

theorem StandardDefinition.exclusive_copy {x : StandardDefinition} (h : x.Exclusive v) : x.copy.Exclusive v := by
  exact Option.map_all (fun _ => JSFSignature.exclusive_copy v) h

theorem Definitions.exclusive_copy {x : Definitions} (h : x.Exclusive v) : x.copy.Exclusive v := by
  exact PSlice.copyWith_all (fun _ => StandardDefinition.exclusive_copy v) h

theorem ResourceReferenceChoice.exclusive_copy {x : ResourceReferenceChoice} (h : x.Exclusive v) : x.copy.Exclusive v := by
  exact fun ⟨a0, a1⟩ => h ⟨(by first | exact a0 | exact copy_ne_none a0 | exact copy_ne_nil a0 | exact copy_gob_ne_none a0), (by first | exact a1 | exact copy_ne_none a1 | exact copy_ne_nil a1 | exact copy_gob_ne_none a1)⟩

theorem TaskInput.exclusive_copy {x : TaskInput} (h : x.Exclusive v) : x.copy.Exclusive v := by
  obtain ⟨h0, h1, h2, h3, h4, h5, h6, h7, h8⟩ := h
  exact ⟨fun ⟨a0, a1⟩ => h0 ⟨(by first | exact a0 | exact copy_ne_none a0 | exact copy_ne_nil a0 | exact copy_gob_ne_none a0), (by first | exact a1 | exact copy_ne_none a1 | exact copy_ne_nil a1 | exact copy_gob_ne_none a1)⟩,
    fun ⟨a0, a1⟩ => h1 ⟨(by first | exact a0 | exact copy_ne_none a0 | exact copy_ne_nil a0 | exact copy_gob_ne_none a0), (by first | exact a1 | exact copy_ne_none a1 | exact copy_ne_nil a1 | exact copy_gob_ne_none a1)⟩,
    fun ⟨a0, a1⟩ => h2 ⟨(by first | exact a0 | exact copy_ne_none a0 | exact copy_ne_nil a0 | exact copy_gob_ne_none a0), (by first | exact a1 | exact copy_ne_none a1 | exact copy_ne_nil a1 | exact copy_gob_ne_none a1)⟩,
    fun ⟨a0, a1⟩ => h3 ⟨(by first | exact a0 | exact copy_ne_none a0 | exact copy_ne_nil a0 | exact copy_gob_ne_none a0), (by first | exact a1 | exact copy_ne_none a1 | exact copy_ne_nil a1 | exact copy_gob_ne_none a1)⟩,
    fun ⟨a0, a1⟩ => h4 ⟨(by first | exact a0 | exact copy_ne_none a0 | exact copy_ne_nil a0 | exact copy_gob_ne_none a0), (by first | exact a1 | exact copy_ne_none a1 | exact copy_ne_nil a1 | exact copy_gob_ne_none a1)⟩,
    fun ⟨a0, a1⟩ => h5 ⟨(by first | exact a0 | exact copy_ne_none a0 | exact copy_ne_nil a0 | exact copy_gob_ne_none a0), (by first | exact a1 | exact copy_ne_none a1 | exact copy_ne_nil a1 | exact copy_gob_ne_none a1)⟩,
    Option.map_all (fun _ => ResourceReferenceChoice.exclusive_copy v) h6,
    Option.map_all (fun _ => ResourceReferenceChoice.exclusive_copy v) h7,
    Option.map_all (fun _ => ResourceReferenceChoice.exclusive_copy v) h8⟩

theorem TaskOutput.exclusive_copy {x : TaskOutput} (h : x.Exclusive v) : x.copy.Exclusive v := by
  obtain ⟨h0, h1, h2, h3, h4, h5⟩ := h
  exact ⟨fun ⟨a0, a1⟩ => h0 ⟨(by first | exact a0 | exact copy_ne_none a0 | exact copy_ne_nil a0 | exact copy_gob_ne_none a0), (by first | exact a1 | exact copy_ne_none a1 | exact copy_ne_nil a1 | exact copy_gob_ne_none a1)⟩,
    fun ⟨a0, a1⟩ => h1 ⟨(by first | exact a0 | exact copy_ne_none a0 | exact copy_ne_nil a0 | exact copy_gob_ne_none a0), (by first | exact a1 | exact copy_ne_none a1 | exact copy_ne_nil a1 | exact copy_gob_ne_none a1)⟩,
    fun ⟨a0, a1⟩ => h2 ⟨(by first | exact a0 | exact copy_ne_none a0 | exact copy_ne_nil a0 | exact copy_gob_ne_none a0), (by first | exact a1 | exact copy_ne_none a1 | exact copy_ne_nil a1 | exact copy_gob_ne_none a1)⟩,
    Option.map_all (fun _ => ResourceReferenceChoice.exclusive_copy v) h3,
    Option.map_all (fun _ => ResourceReferenceChoice.exclusive_copy v) h4,
    Option.map_all (fun _ => ResourceReferenceChoice.exclusive_copy v) h5⟩

theorem Event.exclusive_copy {x : Event} (h : x.Exclusive v) : x.copy.Exclusive v := by
  obtain ⟨h0, h1⟩ := h
  exact ⟨Option.map_all (fun _ => ResourceReferenceChoice.exclusive_copy v) h0,
    Option.map_all (fun _ => ResourceReferenceChoice.exclusive_copy v) h1⟩

theorem TaskTrigger.exclusive_copy {x : TaskTrigger} (h : x.Exclusive v) : x.copy.Exclusive v := by
  obtain ⟨h0, h1, h2, h3⟩ := h
  exact ⟨PSlice.copyWith_all (fun _ => ResourceReferenceChoice.exclusive_copy v) h0,
    Option.map_all (fun _ => Event.exclusive_copy v) h1,
    PSlice.copyWith_all (fun _ => TaskInput.exclusive_copy v) h2,
    PSlice.copyWith_all (fun _ => TaskOutput.exclusive_copy v) h3⟩

theorem TaskWorkspace.exclusive_copy {x : TaskWorkspace} (h : x.Exclusive v) : x.copy.Exclusive v := by
  exact PSlice.copyWith_all (fun _ => ResourceReferenceChoice.exclusive_copy v) h

theorem Task.exclusive_copy {x : Task} (h : x.Exclusive v) : x.copy.Exclusive v := by
  obtain ⟨h0, h1, h2, h3, h4⟩ := h
  exact ⟨PSlice.copyWith_all (fun _ => ResourceReferenceChoice.exclusive_copy v) h0,
    Option.map_all (fun _ => TaskTrigger.exclusive_copy v) h1,
    PSlice.copyWith_all (fun _ => TaskInput.exclusive_copy v) h2,
    PSlice.copyWith_all (fun _ => TaskOutput.exclusive_copy v) h3,
    PSlice.copyWith_all (fun _ => TaskWorkspace.exclusive_copy v) h4⟩

theorem Workflow.exclusive_copy {x : Workflow} (h : x.Exclusive v) : x.copy.Exclusive v := by
  obtain ⟨h0, h1, h2, h3, h4, h5⟩ := h
  exact ⟨PSlice.copyWith_all (fun _ => ResourceReferenceChoice.exclusive_copy v) h0,
    PSlice.copyWith_all (fun _ => Task.exclusive_copy v) h1,
    Option.map_all (fun _ => TaskTrigger.exclusive_copy v) h2,
    PSlice.copyWith_all (fun _ => TaskInput.exclusive_copy v) h3,
    PSlice.copyWith_all (fun _ => TaskOutput.exclusive_copy v) h4,
    PSlice.copyWith_all (fun _ => TaskWorkspace.exclusive_copy v) h5⟩

theorem Formula.exclusive_copy {x : Formula} (h : x.Exclusive v) : x.copy.Exclusive v := by
  obtain ⟨h0, h1, h2⟩ := h
  exact ⟨PSlice.copyWith_all (fun _ => Component.exclusive_copy v) h0,
    PSlice.copyWith_all (fun _ => Service.exclusive_copy v) h1,
    PSlice.copyWith_all (fun _ => Workflow.exclusive_copy v) h2⟩

theorem Lifecycle.exclusive_copy {x : Lifecycle} (h : x.Exclusive v) : x.copy.Exclusive v := by
  obtain ⟨h0, h1⟩ := h
  exact ⟨fun ⟨a0, a1⟩ => h0 ⟨(by first | exact a0 | exact copy_ne_none a0 | exact copy_ne_nil a0 | exact copy_gob_ne_none a0), (by first | exact a1 | exact copy_ne_none a1 | exact copy_ne_nil a1 | exact copy_gob_ne_none a1)⟩,
    fun ⟨a0, a1⟩ => h1 ⟨(by first | exact a0 | exact copy_ne_none a0 | exact copy_ne_nil a0 | exact copy_gob_ne_none a0), (by first | exact a1 | exact copy_ne_none a1 | exact copy_ne_nil a1 | exact copy_gob_ne_none a1)⟩⟩

theorem ToolsChoice.exclusive_copy {x : ToolsChoice} (h : x.Exclusive v) : x.copy.Exclusive v := by
  obtain ⟨h0, h1⟩ := h
  exact ⟨PSlice.copyWith_all (fun _ => Component.exclusive_copy v) h0,
    PSlice.copyWith_all (fun _ => Service.exclusive_copy v) h1⟩

theorem Metadata.exclusive_copy {x : Metadata} (h : x.Exclusive v) : x.copy.Exclusive v := by
  obtain ⟨h0, h1, h2, h3⟩ := h
  exact ⟨PSlice.copyWith_all (fun _ => Lifecycle.exclusive_copy v) h0,
    Option.map_all (fun _ => ToolsChoice.exclusive_copy v) h1,
    Option.map_all (fun _ => Component.exclusive_copy v) h2,
    licenses_exclusive_copy v h3⟩

theorem Vulnerability.exclusive_copy {x : Vulnerability} (h : x.Exclusive v) : x.copy.Exclusive v := by
  obtain ⟨h0, h1⟩ := h
  exact ⟨Option.map_all (fun _ => ToolsChoice.exclusive_copy v) h0,
    PSlice.copyWith_all (fun _ => Affects.exclusive_copy v) h1⟩

theorem Citation.exclusive_copy {x : Citation} (h : x.Exclusive v) : x.copy.Exclusive v := by
  obtain ⟨h0, h1⟩ := h
  exact ⟨fun ⟨a0, a1⟩ => h0 ⟨(by first | exact a0 | exact copy_ne_none a0 | exact copy_ne_nil a0 | exact copy_gob_ne_none a0), (by first | exact a1 | exact copy_ne_none a1 | exact copy_ne_nil a1 | exact copy_gob_ne_none a1)⟩,
    Option.map_all (fun _ => JSFSignature.exclusive_copy v) h1⟩

theorem BOM.exclusive_copy {x : BOM} (h : x.Exclusive v) : x.copy.Exclusive v := by
  obtain ⟨h0, h1, h2, h3, h4, h5, h6, h7, h8, h9, h10⟩ := h
  exact ⟨Option.map_all (fun _ => Metadata.exclusive_copy v) h0,
    PSlice.copyWith_all (fun _ => Component.exclusive_copy v) h1,
    PSlice.copyWith_all (fun _ => Service.exclusive_copy v) h2,
    PSlice.copyWith_all (fun _ => Composition.exclusive_copy v) h3,
    PSlice.copyWith_all (fun _ => Vulnerability.exclusive_copy v) h4,
    PSlice.copyWith_all (fun _ => Annotation.exclusive_copy v) h5,
    PSlice.copyWith_all (fun _ => Formula.exclusive_copy v) h6,
    Option.map_all (fun _ => Declarations.exclusive_copy v) h7,
    Option.map_all (fun _ => Definitions.exclusive_copy v) h8,
    PSlice.copyWith_all (fun _ => Citation.exclusive_copy v) h9,
    Option.map_all (fun _ => JSFSignature.exclusive_copy v) h10⟩

end Verif
