import Verif.Proofs.GobRegular
import Verif.Xml.WritableLaws

/-!
# The deep copy of a value that can be written as XML can be written as XML; its integers are Go integers

GENERATED by `tools/gen_xwritable.py`; do not edit by hand.
-/

namespace Verif

theorem CertificateState.copy_xwritable {x : CertificateState} (h : x.XWritable) : x.copy.XWritable :=
  h.imp (fun h => by simp [CertificateState.copy, h]) (fun h => by simp [CertificateState.copy, h])

theorem CertificateExtension.copy_xwritable {x : CertificateExtension} (h : x.XWritable) : x.copy.XWritable :=
  h.imp (fun h => by simp [CertificateExtension.copy, h]) (fun h => by simp [CertificateExtension.copy, h])

theorem CertificateProperties.copy_xwritable {x : CertificateProperties} (h : x.XWritable) : x.copy.XWritable := by
  obtain ⟨h0, h1⟩ := h
  exact ⟨PSlice.copyWith_all (fun _ => CertificateState.copy_xwritable) h0, PSlice.copyWith_all (fun _ => CertificateExtension.copy_xwritable) h1⟩

theorem CryptoProperties.copy_xwritable {x : CryptoProperties} (h : x.XWritable) : x.copy.XWritable := by
  have h0 := h
  exact Option.map_all (fun _ => CertificateProperties.copy_xwritable) h0

theorem License.copy_xwritable {x : License} (h : x.XWritable) : x.copy.XWritable := h

theorem LicenseChoice.copy_xwritable {x : LicenseChoice} (h : x.XWritable) : x.copy.XWritable :=
  Option.map_all (P := fun y => x.expression = "" ∧ License.XWritable y)
    (fun _ h => ⟨h.1, License.copy_xwritable h.2⟩) h

theorem Evidence.copy_xwritable {x : Evidence} (h : x.XWritable) : x.copy.XWritable :=
  PSlice.copyWith_all (fun _ => LicenseChoice.copy_xwritable) h

theorem AsserterChoice.copy_xwritable {x : AsserterChoice} (h : x.XWritable) : x.copy.XWritable :=
  h.imp (fun h => by simp [AsserterChoice.copy, h]) (fun h => by simp [AsserterChoice.copy, h])

theorem PatentAssertion.copy_xwritable {x : PatentAssertion} (h : x.XWritable) : x.copy.XWritable := by
  have h0 := h
  exact Option.map_all (fun _ => AsserterChoice.copy_xwritable) h0

theorem copyComponents_xWritable {p : PSlice Component} (hp : ∀ c ∈ p.elems, c.XWritable → c.copy.XWritable)
    (h : XWritableComponents p) : XWritableComponents (copyComponents p) := by
  rw [xWritableComponents_iff] at h ⊢
  rw [copyComponents_eq]
  intro c hc
  obtain ⟨d, hd, rfl⟩ := PSlice.mem_copyWith hc
  exact hp d hd (h d hd)

theorem Component.copy_xwritable {x : Component} : x.XWritable → x.copy.XWritable := by
  induction x using Component.induct with
  | h c ih =>
    intro h
    have hc : XWritableComponents c.components → XWritableComponents (copyComponents c.components) :=
      copyComponents_xWritable fun d hd => ih d (by simp [Component.children, hd])
    have hp : XWritablePedigreeOpt c.pedigree → XWritablePedigreeOpt (copyPedigreeOpt c.pedigree) := by
      cases hp : c.pedigree with
      | none => simp [copyPedigreeOpt, XWritablePedigreeOpt]
      | some p =>
        simp only [copyPedigreeOpt, XWritablePedigreeOpt]
        have ih' : ∀ d ∈ p.relatives, d.XWritable → d.copy.XWritable :=
          fun d hd => ih d (by simp [Component.children, hp, hd])
        intro hw
        cases p
        simp only [copyPedigree, XWritablePedigree] at hw ⊢
        obtain ⟨w0, w1, w2⟩ := hw
        exact ⟨copyComponents_xWritable (fun d hd => ih' d (by simp [Pedigree.relatives, hd])) w0, copyComponents_xWritable (fun d hd => ih' d (by simp [Pedigree.relatives, hd])) w1, copyComponents_xWritable (fun d hd => ih' d (by simp [Pedigree.relatives, hd])) w2⟩
    cases c
    simp only at hc hp
    simp only [Component.copy, Component.XWritable] at h ⊢
    obtain ⟨h0, h1, h2, h3, h4, h5⟩ := h
    exact ⟨PSlice.copyWith_all (fun _ => LicenseChoice.copy_xwritable) h0, hp h1, hc h2, Option.map_all (fun _ => Evidence.copy_xwritable) h3, Option.map_all (fun _ => CryptoProperties.copy_xwritable) h4, PSlice.copyWith_all (fun _ => PatentAssertion.copy_xwritable) h5⟩

theorem Service.copy_xwritable {x : Service} : x.XWritable → x.copy.XWritable := by
  induction x using Service.induct with
  | h c ih =>
    intro h
    have hc : XWritableServices c.services → XWritableServices (copyServices c.services) := by
      rw [xWritableServices_iff, xWritableServices_iff, copyServices_eq]
      intro h d hd
      obtain ⟨e, he, rfl⟩ := PSlice.mem_copyWith hd
      exact ih e (by simp [Service.children, he]) (h e he)
    cases c
    simp only at hc
    simp only [Service.copy, Service.XWritable] at h ⊢
    obtain ⟨h0, h1, h2⟩ := h
    exact ⟨PSlice.copyWith_all (fun _ => LicenseChoice.copy_xwritable) h0, hc h1, PSlice.copyWith_all (fun _ => PatentAssertion.copy_xwritable) h2⟩

theorem Annotator.copy_xwritable {x : Annotator} (h : x.XWritable) : x.copy.XWritable := by
  obtain ⟨h0, h1⟩ := h
  exact ⟨Option.map_all (fun _ => Component.copy_xwritable) h0, Option.map_all (fun _ => Service.copy_xwritable) h1⟩

theorem Annotation.copy_xwritable {x : Annotation} (h : x.XWritable) : x.copy.XWritable := by
  have h0 := h
  exact Option.map_all (fun _ => Annotator.copy_xwritable) h0

theorem Targets.copy_xwritable {x : Targets} (h : x.XWritable) : x.copy.XWritable := by
  obtain ⟨h0, h1⟩ := h
  exact ⟨PSlice.copyWith_all (fun _ => Component.copy_xwritable) h0, PSlice.copyWith_all (fun _ => Service.copy_xwritable) h1⟩

theorem Declarations.copy_xwritable {x : Declarations} (h : x.XWritable) : x.copy.XWritable := by
  have h0 := h
  exact Option.map_all (fun _ => Targets.copy_xwritable) h0

theorem EnvironmentVariableChoice.copy_xwritable {x : EnvironmentVariableChoice} (h : x.XWritable) : x.copy.XWritable :=
  h.imp (fun h => by simp [EnvironmentVariableChoice.copy, h]) _root_.id

theorem TaskInput.copy_xwritable {x : TaskInput} (h : x.XWritable) : x.copy.XWritable := by
  have h0 := h
  exact PSlice.copyWith_all (fun _ => EnvironmentVariableChoice.copy_xwritable) h0

theorem TaskOutput.copy_xwritable {x : TaskOutput} (h : x.XWritable) : x.copy.XWritable := by
  have h0 := h
  exact PSlice.copyWith_all (fun _ => EnvironmentVariableChoice.copy_xwritable) h0

theorem TaskTrigger.copy_xwritable {x : TaskTrigger} (h : x.XWritable) : x.copy.XWritable := by
  obtain ⟨h0, h1⟩ := h
  exact ⟨PSlice.copyWith_all (fun _ => TaskInput.copy_xwritable) h0, PSlice.copyWith_all (fun _ => TaskOutput.copy_xwritable) h1⟩

theorem Task.copy_xwritable {x : Task} (h : x.XWritable) : x.copy.XWritable := by
  obtain ⟨h0, h1, h2⟩ := h
  exact ⟨Option.map_all (fun _ => TaskTrigger.copy_xwritable) h0, PSlice.copyWith_all (fun _ => TaskInput.copy_xwritable) h1, PSlice.copyWith_all (fun _ => TaskOutput.copy_xwritable) h2⟩

theorem Workflow.copy_xwritable {x : Workflow} (h : x.XWritable) : x.copy.XWritable := by
  obtain ⟨h0, h1, h2, h3⟩ := h
  exact ⟨PSlice.copyWith_all (fun _ => Task.copy_xwritable) h0, Option.map_all (fun _ => TaskTrigger.copy_xwritable) h1, PSlice.copyWith_all (fun _ => TaskInput.copy_xwritable) h2, PSlice.copyWith_all (fun _ => TaskOutput.copy_xwritable) h3⟩

theorem Formula.copy_xwritable {x : Formula} (h : x.XWritable) : x.copy.XWritable := by
  obtain ⟨h0, h1, h2⟩ := h
  exact ⟨PSlice.copyWith_all (fun _ => Component.copy_xwritable) h0, PSlice.copyWith_all (fun _ => Service.copy_xwritable) h1, PSlice.copyWith_all (fun _ => Workflow.copy_xwritable) h2⟩

theorem ToolsChoice.copy_xwritable {x : ToolsChoice} (h : x.XWritable) : x.copy.XWritable := by
  obtain ⟨h1, h2, h3⟩ := h
  refine ⟨?_, PSlice.copyWith_all (fun _ => Component.copy_xwritable) h2,
    PSlice.copyWith_all (fun _ => Service.copy_xwritable) h3⟩
  rcases h1 with h | ⟨h, h'⟩
  · exact .inl (by simp [ToolsChoice.copy, h, PSlice.copyWith])
  · exact .inr ⟨by simp [ToolsChoice.copy, h, PSlice.copyWith], by simp [ToolsChoice.copy, h', PSlice.copyWith]⟩

theorem Metadata.copy_xwritable {x : Metadata} (h : x.XWritable) : x.copy.XWritable := by
  obtain ⟨h0, h1, h2⟩ := h
  exact ⟨Option.map_all (fun _ => ToolsChoice.copy_xwritable) h0, Option.map_all (fun _ => Component.copy_xwritable) h1, PSlice.copyWith_all (fun _ => LicenseChoice.copy_xwritable) h2⟩

theorem Vulnerability.copy_xwritable {x : Vulnerability} (h : x.XWritable) : x.copy.XWritable := by
  have h0 := h
  exact Option.map_all (fun _ => ToolsChoice.copy_xwritable) h0

theorem BOM.copy_xwritable {x : BOM} (h : x.XWritable) : x.copy.XWritable := by
  obtain ⟨h0, h1, h2, h3, h4, h5, h6⟩ := h
  exact ⟨Option.map_all (fun _ => Metadata.copy_xwritable) h0, PSlice.copyWith_all (fun _ => Component.copy_xwritable) h1, PSlice.copyWith_all (fun _ => Service.copy_xwritable) h2, PSlice.copyWith_all (fun _ => Vulnerability.copy_xwritable) h3, PSlice.copyWith_all (fun _ => Annotation.copy_xwritable) h4, PSlice.copyWith_all (fun _ => Formula.copy_xwritable) h5, Option.map_all (fun _ => Declarations.copy_xwritable) h6⟩

theorem CryptoAlgorithmProperties.copy_goInts {x : CryptoAlgorithmProperties} (h : x.GoInts) : x.copy.GoInts := by
  obtain ⟨h0, h1⟩ := h
  exact ⟨fun x hx => h0 x (Gob.int_mem hx), fun x hx => h1 x (Gob.int_mem hx)⟩

theorem IKEv2Enc.copy_goInts {x : IKEv2Enc} (h : x.GoInts) : x.copy.GoInts := by
  have h0 := h
  exact fun x hx => h0 x (Gob.int_mem hx)

theorem IKEv2Ke.copy_goInts {x : IKEv2Ke} (h : x.GoInts) : x.copy.GoInts := by
  have h0 := h
  exact fun x hx => h0 x (Gob.int_mem hx)

theorem IKEv2TransformTypes.copy_goInts {x : IKEv2TransformTypes} (h : x.GoInts) : x.copy.GoInts := by
  obtain ⟨h0, h1⟩ := h
  exact ⟨PSlice.copyWith_all (fun _ => IKEv2Enc.copy_goInts) h0, PSlice.copyWith_all (fun _ => IKEv2Ke.copy_goInts) h1⟩

theorem CryptoProtocolProperties.copy_goInts {x : CryptoProtocolProperties} (h : x.GoInts) : x.copy.GoInts := by
  have h0 := h
  exact Option.map_all (fun _ => IKEv2TransformTypes.copy_goInts) h0

theorem RelatedCryptoMaterialProperties.copy_goInts {x : RelatedCryptoMaterialProperties} (h : x.GoInts) : x.copy.GoInts := by
  have h0 := h
  exact fun x hx => h0 x (Gob.int_mem hx)

theorem CryptoProperties.copy_goInts {x : CryptoProperties} (h : x.GoInts) : x.copy.GoInts := by
  obtain ⟨h0, h1, h2⟩ := h
  exact ⟨Option.map_all (fun _ => CryptoAlgorithmProperties.copy_goInts) h0, Option.map_all (fun _ => RelatedCryptoMaterialProperties.copy_goInts) h1, Option.map_all (fun _ => CryptoProtocolProperties.copy_goInts) h2⟩

theorem CallstackFrame.copy_goInts {x : CallstackFrame} (h : x.GoInts) : x.copy.GoInts := by
  obtain ⟨h0, h1⟩ := h
  exact ⟨fun x hx => h0 x (Gob.int_mem hx), fun x hx => h1 x (Gob.int_mem hx)⟩

theorem Callstack.copy_goInts {x : Callstack} (h : x.GoInts) : x.copy.GoInts := by
  have h0 := h
  exact PSlice.copyWith_all (fun _ => CallstackFrame.copy_goInts) h0

theorem EvidenceOccurrence.copy_goInts {x : EvidenceOccurrence} (h : x.GoInts) : x.copy.GoInts := by
  obtain ⟨h0, h1⟩ := h
  exact ⟨fun x hx => h0 x (Gob.int_mem hx), fun x hx => h1 x (Gob.int_mem hx)⟩

theorem Evidence.copy_goInts {x : Evidence} (h : x.GoInts) : x.copy.GoInts := by
  obtain ⟨h0, h1⟩ := h
  exact ⟨PSlice.copyWith_all (fun _ => EvidenceOccurrence.copy_goInts) h0, Option.map_all (fun _ => Callstack.copy_goInts) h1⟩

theorem SWID.copy_goInts {x : SWID} (h : x.GoInts) : x.copy.GoInts := by
  have h0 := h
  exact fun x hx => h0 x (Gob.int_mem hx)

theorem copyComponents_goInts {p : PSlice Component} (hp : ∀ c ∈ p.elems, c.GoInts → c.copy.GoInts)
    (h : GoIntsComponents p) : GoIntsComponents (copyComponents p) := by
  rw [goIntsComponents_iff] at h ⊢
  rw [copyComponents_eq]
  intro c hc
  obtain ⟨d, hd, rfl⟩ := PSlice.mem_copyWith hc
  exact hp d hd (h d hd)

theorem Component.copy_goInts {x : Component} : x.GoInts → x.copy.GoInts := by
  induction x using Component.induct with
  | h c ih =>
    intro h
    have hc : GoIntsComponents c.components → GoIntsComponents (copyComponents c.components) :=
      copyComponents_goInts fun d hd => ih d (by simp [Component.children, hd])
    have hp : GoIntsPedigreeOpt c.pedigree → GoIntsPedigreeOpt (copyPedigreeOpt c.pedigree) := by
      cases hp : c.pedigree with
      | none => simp [copyPedigreeOpt, GoIntsPedigreeOpt]
      | some p =>
        simp only [copyPedigreeOpt, GoIntsPedigreeOpt]
        have ih' : ∀ d ∈ p.relatives, d.GoInts → d.copy.GoInts :=
          fun d hd => ih d (by simp [Component.children, hp, hd])
        intro hw
        cases p
        simp only [copyPedigree, GoIntsPedigree] at hw ⊢
        obtain ⟨w0, w1, w2⟩ := hw
        exact ⟨copyComponents_goInts (fun d hd => ih' d (by simp [Pedigree.relatives, hd])) w0, copyComponents_goInts (fun d hd => ih' d (by simp [Pedigree.relatives, hd])) w1, copyComponents_goInts (fun d hd => ih' d (by simp [Pedigree.relatives, hd])) w2⟩
    cases c
    simp only at hc hp
    simp only [Component.copy, Component.GoInts] at h ⊢
    obtain ⟨h0, h1, h2, h3, h4⟩ := h
    exact ⟨Option.map_all (fun _ => SWID.copy_goInts) h0, hp h1, hc h2, Option.map_all (fun _ => Evidence.copy_goInts) h3, Option.map_all (fun _ => CryptoProperties.copy_goInts) h4⟩

theorem Annotator.copy_goInts {x : Annotator} (h : x.GoInts) : x.copy.GoInts := by
  have h0 := h
  exact Option.map_all (fun _ => Component.copy_goInts) h0

theorem Annotation.copy_goInts {x : Annotation} (h : x.GoInts) : x.copy.GoInts := by
  have h0 := h
  exact Option.map_all (fun _ => Annotator.copy_goInts) h0

theorem Targets.copy_goInts {x : Targets} (h : x.GoInts) : x.copy.GoInts := by
  have h0 := h
  exact PSlice.copyWith_all (fun _ => Component.copy_goInts) h0

theorem Declarations.copy_goInts {x : Declarations} (h : x.GoInts) : x.copy.GoInts := by
  have h0 := h
  exact Option.map_all (fun _ => Targets.copy_goInts) h0

theorem Formula.copy_goInts {x : Formula} (h : x.GoInts) : x.copy.GoInts := by
  have h0 := h
  exact PSlice.copyWith_all (fun _ => Component.copy_goInts) h0

theorem ToolsChoice.copy_goInts {x : ToolsChoice} (h : x.GoInts) : x.copy.GoInts := by
  have h0 := h
  exact PSlice.copyWith_all (fun _ => Component.copy_goInts) h0

theorem Metadata.copy_goInts {x : Metadata} (h : x.GoInts) : x.copy.GoInts := by
  obtain ⟨h0, h1⟩ := h
  exact ⟨Option.map_all (fun _ => ToolsChoice.copy_goInts) h0, Option.map_all (fun _ => Component.copy_goInts) h1⟩

theorem Vulnerability.copy_goInts {x : Vulnerability} (h : x.GoInts) : x.copy.GoInts := by
  obtain ⟨h0, h1⟩ := h
  exact ⟨PSlice.copyWith_all (fun _ h => h) h0, Option.map_all (fun _ => ToolsChoice.copy_goInts) h1⟩

theorem BOM.copy_goInts {x : BOM} (h : x.GoInts) : x.copy.GoInts := by
  obtain ⟨h0, h1, h2, h3, h4, h5, h6⟩ := h
  exact ⟨h0, Option.map_all (fun _ => Metadata.copy_goInts) h1, PSlice.copyWith_all (fun _ => Component.copy_goInts) h2, PSlice.copyWith_all (fun _ => Vulnerability.copy_goInts) h3, PSlice.copyWith_all (fun _ => Annotation.copy_goInts) h4, PSlice.copyWith_all (fun _ => Formula.copy_goInts) h5, Option.map_all (fun _ => Declarations.copy_goInts) h6⟩

end Verif
