import Verif.Proofs.Gob
import Verif.Json.CanonicalLaws

/-!
# The deep copy of a regular value is regular

GENERATED by `tools/gen_gob.py`; do not edit by hand.
-/

namespace Verif

theorem Gob.int_mem {o : Option Int} {x : Int} (h : x ∈ Gob.int o) : x ∈ o := by
  cases o with
  | none => exact h
  | some s =>
    by_cases hs : s = 0
    · simp [Gob.int, hs] at h
    · simpa [Gob.int, hs] using h

theorem CertificateState.copy_regular {x : CertificateState} (h : x.Regular) : x.copy.Regular :=
  Option.map_all (fun _ h => h) h

theorem CertificateExtension.copy_regular {x : CertificateExtension} (h : x.Regular) : x.copy.Regular :=
  Option.map_all (fun _ h => h) h

theorem CertificateProperties.copy_regular {x : CertificateProperties} (h : x.Regular) : x.copy.Regular := by
  obtain ⟨h0, h1⟩ := h
  exact ⟨PSlice.copyWith_all (fun _ => CertificateState.copy_regular) h0, PSlice.copyWith_all (fun _ => CertificateExtension.copy_regular) h1⟩

theorem CryptoAlgorithmProperties.copy_regular {x : CryptoAlgorithmProperties} (h : x.Regular) : x.copy.Regular := by
  obtain ⟨h0, h1⟩ := h
  exact ⟨fun x hx => h0 x (Gob.int_mem hx), fun x hx => h1 x (Gob.int_mem hx)⟩

theorem IKEv2Enc.copy_regular {x : IKEv2Enc} (h : x.Regular) : x.copy.Regular :=
  fun x hx => h x (Gob.int_mem hx)

theorem IKEv2Ke.copy_regular {x : IKEv2Ke} (h : x.Regular) : x.copy.Regular :=
  fun x hx => h x (Gob.int_mem hx)

theorem IKEv2TransformTypes.copy_regular {x : IKEv2TransformTypes} (h : x.Regular) : x.copy.Regular := by
  obtain ⟨h0, h1⟩ := h
  exact ⟨PSlice.copyWith_all (fun _ => IKEv2Enc.copy_regular) h0, PSlice.copyWith_all (fun _ => IKEv2Ke.copy_regular) h1⟩

theorem CryptoProtocolProperties.copy_regular {x : CryptoProtocolProperties} (h : x.Regular) : x.copy.Regular :=
  Option.map_all (fun _ => IKEv2TransformTypes.copy_regular) h

theorem RelatedCryptoMaterialProperties.copy_regular {x : RelatedCryptoMaterialProperties} (h : x.Regular) : x.copy.Regular :=
  fun x hx => h x (Gob.int_mem hx)

theorem CryptoProperties.copy_regular {x : CryptoProperties} (h : x.Regular) : x.copy.Regular := by
  obtain ⟨h0, h1, h2, h3⟩ := h
  exact ⟨Option.map_all (fun _ => CryptoAlgorithmProperties.copy_regular) h0, Option.map_all (fun _ => CertificateProperties.copy_regular) h1, Option.map_all (fun _ => RelatedCryptoMaterialProperties.copy_regular) h2, Option.map_all (fun _ => CryptoProtocolProperties.copy_regular) h3⟩

theorem CallstackFrame.copy_regular {x : CallstackFrame} (h : x.Regular) : x.copy.Regular := by
  obtain ⟨h0, h1⟩ := h
  exact ⟨fun x hx => h0 x (Gob.int_mem hx), fun x hx => h1 x (Gob.int_mem hx)⟩

theorem Callstack.copy_regular {x : Callstack} (h : x.Regular) : x.copy.Regular :=
  PSlice.copyWith_all (fun _ => CallstackFrame.copy_regular) h

theorem EvidenceOccurrence.copy_regular {x : EvidenceOccurrence} (h : x.Regular) : x.copy.Regular := by
  obtain ⟨h0, h1⟩ := h
  exact ⟨fun x hx => h0 x (Gob.int_mem hx), fun x hx => h1 x (Gob.int_mem hx)⟩

theorem Evidence.copy_regular {x : Evidence} (h : x.Regular) : x.copy.Regular := by
  obtain ⟨h0, h1⟩ := h
  exact ⟨PSlice.copyWith_all (fun _ => EvidenceOccurrence.copy_regular) h0, Option.map_all (fun _ => Callstack.copy_regular) h1⟩

theorem SWID.copy_regular {x : SWID} (h : x.Regular) : x.copy.Regular :=
  fun x hx => h x (Gob.int_mem hx)

theorem copyComponents_regular {p : PSlice Component} (hp : ∀ c ∈ p.elems, c.Regular → c.copy.Regular)
    (h : RegularComponents p) : RegularComponents (copyComponents p) := by
  rw [regularComponents_iff] at h ⊢
  rw [copyComponents_eq]
  intro c hc
  obtain ⟨d, hd, rfl⟩ := PSlice.mem_copyWith hc
  exact hp d hd (h d hd)

theorem Component.copy_regular {x : Component} : x.Regular → x.copy.Regular := by
  induction x using Component.induct with
  | h c ih =>
    intro h
    have hc : RegularComponents c.components → RegularComponents (copyComponents c.components) :=
      copyComponents_regular fun d hd => ih d (by simp [Component.children, hd])
    have hp : RegularPedigreeOpt c.pedigree → RegularPedigreeOpt (copyPedigreeOpt c.pedigree) := by
      cases hp : c.pedigree with
      | none => simp [copyPedigreeOpt, RegularPedigreeOpt]
      | some p =>
        simp only [copyPedigreeOpt, RegularPedigreeOpt]
        have ih' : ∀ d ∈ p.relatives, d.Regular → d.copy.Regular :=
          fun d hd => ih d (by simp [Component.children, hp, hd])
        intro hw
        cases p
        simp only [copyPedigree, RegularPedigree] at hw ⊢
        obtain ⟨w0, w1, w2⟩ := hw
        exact ⟨copyComponents_regular (fun d hd => ih' d (by simp [Pedigree.relatives, hd])) w0, copyComponents_regular (fun d hd => ih' d (by simp [Pedigree.relatives, hd])) w1, copyComponents_regular (fun d hd => ih' d (by simp [Pedigree.relatives, hd])) w2⟩
    cases c
    simp only at hc hp
    simp only [Component.copy, Component.Regular] at h ⊢
    obtain ⟨h0, h1, h2, h3, h4⟩ := h
    exact ⟨Option.map_all (fun _ => SWID.copy_regular) h0, hp h1, hc h2, Option.map_all (fun _ => Evidence.copy_regular) h3, Option.map_all (fun _ => CryptoProperties.copy_regular) h4⟩

theorem Service.copy_regular {x : Service} : x.Regular → x.copy.Regular := by
  induction x using Service.induct with
  | h c ih =>
    intro h
    have hc : RegularServices c.services → RegularServices (copyServices c.services) := by
      rw [regularServices_iff, regularServices_iff, copyServices_eq]
      intro h d hd
      obtain ⟨e, he, rfl⟩ := PSlice.mem_copyWith hd
      exact ih e (by simp [Service.children, he]) (h e he)
    cases c
    simp only at hc
    simp only [Service.copy, Service.Regular] at h ⊢
    exact hc h

theorem Annotator.copy_regular {x : Annotator} (h : x.Regular) : x.copy.Regular := by
  obtain ⟨h0, h1⟩ := h
  exact ⟨Option.map_all (fun _ => Component.copy_regular) h0, Option.map_all (fun _ => Service.copy_regular) h1⟩

theorem Annotation.copy_regular {x : Annotation} (h : x.Regular) : x.copy.Regular :=
  Option.map_all (fun _ => Annotator.copy_regular) h

theorem Targets.copy_regular {x : Targets} (h : x.Regular) : x.copy.Regular := by
  obtain ⟨h0, h1⟩ := h
  exact ⟨PSlice.copyWith_all (fun _ => Component.copy_regular) h0, PSlice.copyWith_all (fun _ => Service.copy_regular) h1⟩

theorem Declarations.copy_regular {x : Declarations} (h : x.Regular) : x.copy.Regular :=
  Option.map_all (fun _ => Targets.copy_regular) h

theorem PatentChoice.copy_regular {x : PatentChoice} (h : x.Regular) : x.copy.Regular :=
  Option.map_all (fun _ h => h) h

theorem Definitions.copy_regular {x : Definitions} (h : x.Regular) : x.copy.Regular :=
  PSlice.copyWith_all (fun _ => PatentChoice.copy_regular) h

theorem Formula.copy_regular {x : Formula} (h : x.Regular) : x.copy.Regular := by
  obtain ⟨h0, h1⟩ := h
  exact ⟨PSlice.copyWith_all (fun _ => Component.copy_regular) h0, PSlice.copyWith_all (fun _ => Service.copy_regular) h1⟩

theorem ToolsChoice.copy_regular {x : ToolsChoice} (h : x.Regular) : x.copy.Regular := by
  obtain ⟨h0, h1⟩ := h
  exact ⟨PSlice.copyWith_all (fun _ => Component.copy_regular) h0, PSlice.copyWith_all (fun _ => Service.copy_regular) h1⟩

theorem Metadata.copy_regular {x : Metadata} (h : x.Regular) : x.copy.Regular := by
  obtain ⟨h0, h1⟩ := h
  exact ⟨Option.map_all (fun _ => ToolsChoice.copy_regular) h0, Option.map_all (fun _ => Component.copy_regular) h1⟩

theorem Vulnerability.copy_regular {x : Vulnerability} (h : x.Regular) : x.copy.Regular := by
  obtain ⟨h0, h1⟩ := h
  exact ⟨PSlice.copyWith_all (fun _ h => h) h0, Option.map_all (fun _ => ToolsChoice.copy_regular) h1⟩

theorem BOM.copy_regular {x : BOM} (h : x.Regular) : x.copy.Regular := by
  obtain ⟨h0, h1, h2, h3, h4, h5, h6, h7, h8⟩ := h
  exact ⟨h0, Option.map_all (fun _ => Metadata.copy_regular) h1, PSlice.copyWith_all (fun _ => Component.copy_regular) h2, PSlice.copyWith_all (fun _ => Service.copy_regular) h3, PSlice.copyWith_all (fun _ => Vulnerability.copy_regular) h4, PSlice.copyWith_all (fun _ => Annotation.copy_regular) h5, PSlice.copyWith_all (fun _ => Formula.copy_regular) h6, Option.map_all (fun _ => Declarations.copy_regular) h7, Option.map_all (fun _ => Definitions.copy_regular) h8⟩

end Verif
