import Verif.Spec.BomRefs
import Verif.Json.StructLaws

/-!
# Which identifiers are written to JSON

GENERATED by `tools/gen_refs.py`; do not edit by hand.  `RefC c x L`: when the codec `c` writes `x`, the identifiers in
what it writes are `L`.  For every type `L` is `T.bomRefs x`, or empty.
-/

namespace Verif

set_option linter.unusedSectionVars false
set_option linter.unusedSimpArgs false

section
variable [Wire]

theorem refsComponentList_eq (xs : List Component) : refsComponentList xs = xs.flatMap Component.bomRefs := by
  induction xs with
  | nil => simp [refsComponentList]
  | cons x xs ih => simp [refsComponentList, ih]
theorem refsComponents_eq (p : PSlice Component) : refsComponents p = p.elems.flatMap Component.bomRefs := by
  cases p <;> simp [refsComponents, PSlice.elems, refsComponentList_eq]
theorem refsPedigreeOpt_eq (o : Option (Pedigree Component)) : refsPedigreeOpt o = o.toList.flatMap refsPedigree := by
  cases o <;> simp [refsPedigreeOpt]
theorem refsServiceList_eq (xs : List Service) : refsServiceList xs = xs.flatMap Service.bomRefs := by
  induction xs with
  | nil => simp [refsServiceList]
  | cons x xs ih => simp [refsServiceList, ih]
theorem refsServices_eq (p : PSlice Service) : refsServices p = p.elems.flatMap Service.bomRefs := by
  cases p <;> simp [refsServices, PSlice.elems, refsServiceList_eq]
end

attribute [local instance] Wire.json

/-- When `c` writes `a`, the identifiers in what it writes are `L`. -/
def RefC {α : Type} (c : JCodec α) (a : α) (L : List String) : Prop := ∀ j, c.enc a = some j → j.bomRefs = L

/-- When the fields are written, the identifiers in the members are `L`. -/
def RefF {β : Type} (F : JFields β) (b : β) (L : List String) : Prop :=
  ∀ ms, F.enc b = some ms → Json.memberRefs ms = L

/-- One field: it is dropped and has no identifiers, or `L` are those in what is written. -/
def FieldRef {α : Type} (oe : Bool) (c : JCodec α) (a : α) (L : List String) : Prop :=
  if oe && c.empty a then L = [] else RefC c a L

theorem RefC.eq {α : Type} {c : JCodec α} {a : α} {L M : List String} (h : RefC c a L) (e : L = M) : RefC c a M :=
  e ▸ h

theorem rj_nil {b : Unit} : RefF .nil b [] := by
  intro ms h
  simp only [JFields.enc, Option.some.injEq] at h
  subst h
  simp [Json.memberRefs]

theorem rj_skip {α β : Type} {z : α} {F : JFields β} {b : α × β} {L : List String} (h : RefF F b.2 L) :
    RefF (.skip z F) b L := h

theorem rj_ref {β : Type} {F : JFields β} {b : String × β} {L : List String} (h : RefF F b.2 L) :
    RefF (.field "bom-ref" true JCodec.string F) b (ident b.1 ++ L) := by
  intro ms hm
  simp only [JFields.enc] at hm
  by_cases he : b.1 = ""
  · simp only [JCodec.string, he, decide_true, Bool.and_self, if_true] at hm
    simpa [ident, he] using h ms hm
  · simp only [JCodec.string, he, decide_false, Bool.and_false, Bool.false_eq_true, if_false,
      Option.map_eq_some_iff] at hm
    obtain ⟨ms', hm', rfl⟩ := hm
    simp [Json.memberRefs, Json.bomRefs, h ms' hm', ident, he]

theorem rj_field {α β : Type} {n : String} {oe : Bool} {c : JCodec α} {F : JFields β} {b : α × β} {P L : List String}
    (hn : n ≠ "bom-ref") (h1 : FieldRef oe c b.1 P) (h2 : RefF F b.2 L) : RefF (.field n oe c F) b (P ++ L) := by
  intro ms h
  simp only [JFields.enc] at h
  simp only [FieldRef] at h1
  by_cases he : (oe && c.empty b.1) = true
  · rw [if_pos he] at h h1
    rw [h1, h2 ms h, List.nil_append]
  · rw [if_neg he] at h h1
    cases hc : c.enc b.1 with
    | none => simp [hc] at h
    | some j =>
      simp only [hc, Option.map_eq_some_iff] at h
      obtain ⟨ms', hm, rfl⟩ := h
      simp [Json.memberRefs, hn, h1 j hc, h2 ms' hm]

theorem rj_plain {α β : Type} {n : String} {oe : Bool} {c : JCodec α} {F : JFields β} {b : α × β} {L : List String}
    (hn : n ≠ "bom-ref") (h1 : FieldRef oe c b.1 []) (h2 : RefF F b.2 L) : RefF (.field n oe c F) b L := by
  have := rj_field hn h1 h2
  rwa [List.nil_append] at this

theorem rc_struct {σ β : Type} {F : JFields β} {toP : σ → β} {ofP : β → σ} {x : σ} {L : List String}
    (h : RefF F (toP x) L) : RefC (JCodec.struct F toP ofP) x L := by
  intro j hj
  simp only [JCodec.struct, Option.map_eq_some_iff] at hj
  obtain ⟨ms, hm, rfl⟩ := hj
  simp [Json.bomRefs, h ms hm]

theorem refs_none {α : Type} (xs : List α) : (xs.flatMap fun _ => ([] : List String)) = [] := by
  induction xs with
  | nil => rfl
  | cons x xs ih => simp only [List.flatMap_cons, ih, List.append_nil]

/-! ### Fields -/

theorem rf_nil {α : Type} {oe : Bool} {c : JCodec α} {a : α} (h : RefC c a []) : FieldRef oe c a [] := by
  unfold FieldRef
  split
  · rfl
  · exact h

theorem rf_val {α : Type} {oe : Bool} {c : JCodec α} {a : α} {L : List String} (e : c.empty a = false)
    (h : RefC c a L) : FieldRef oe c a L := by
  simp only [FieldRef, e, Bool.and_false, Bool.false_eq_true, if_false]
  exact h

theorem rf_opt {α : Type} {oe : Bool} {c : JCodec α} {o : Option α} {f : α → List String}
    (h : ∀ a ∈ o, RefC c a (f a)) : FieldRef oe (JCodec.option c) o (o.toList.flatMap f) := by
  cases o with
  | none =>
    simp only [FieldRef]
    split
    · rfl
    · intro j hj
      simp only [JCodec.option, Option.some.injEq] at hj
      subst hj
      simp [Json.bomRefs]
  | some a =>
    simp only [FieldRef, JCodec.option, Option.isNone_some, Bool.and_false, Bool.false_eq_true, if_false]
    intro j hj
    simpa using h a rfl j hj

theorem rf_opt_nil {α : Type} {oe : Bool} {c : JCodec α} {o : Option α} (h : ∀ a ∈ o, RefC c a []) :
    FieldRef oe (JCodec.option c) o [] := by
  have := rf_opt (oe := oe) (f := fun _ => []) h
  rwa [refs_none] at this

theorem rc_encList {α : Type} {c : JCodec α} {f : α → List String} : ∀ {xs : List α} {js : List Json},
    (∀ a ∈ xs, RefC c a (f a)) → JCodec.encList c xs = some js → Json.listRefs js = xs.flatMap f
  | [], js, _, h => by
    simp only [JCodec.encList, Option.some.injEq] at h
    subst h
    simp [Json.listRefs]
  | x :: xs, js, hx, h => by
    simp only [JCodec.encList] at h
    cases hc : c.enc x with
    | none => simp [hc] at h
    | some j =>
      simp only [hc, Option.map_eq_some_iff] at h
      obtain ⟨js', h', rfl⟩ := h
      simp [Json.listRefs, hx x (by simp) j hc, rc_encList (fun a ha => hx a (List.mem_cons_of_mem _ ha)) h']

theorem rc_list {α : Type} {c : JCodec α} {p : PSlice α} {f : α → List String}
    (h : ∀ a ∈ p.elems, RefC c a (f a)) : RefC (JCodec.pslice c) p (p.elems.flatMap f) := by
  intro j hj
  cases p with
  | list xs =>
    simp only [JCodec.pslice, Option.map_eq_some_iff] at hj
    obtain ⟨js, h', rfl⟩ := hj
    simpa [Json.bomRefs, PSlice.elems] using rc_encList h h'
  | _ =>
    simp only [JCodec.pslice, Option.some.injEq] at hj
    subst hj
    simp [Json.bomRefs, PSlice.elems]

theorem rf_list {α : Type} {oe : Bool} {c : JCodec α} {p : PSlice α} {f : α → List String}
    (h : ∀ a ∈ p.elems, RefC c a (f a)) : FieldRef oe (JCodec.pslice c) p (p.elems.flatMap f) := by
  simp only [FieldRef]
  split
  · rename_i he
    rw [Bool.and_eq_true] at he
    cases p <;> simp_all [JCodec.pslice, PSlice.isNil, PSlice.elems]
  · exact rc_list h

theorem rf_list_nil {α : Type} {oe : Bool} {c : JCodec α} {p : PSlice α} (h : ∀ a ∈ p.elems, RefC c a []) :
    FieldRef oe (JCodec.pslice c) p [] := by
  have := rf_list (oe := oe) (f := fun _ => []) h
  rwa [refs_none] at this

theorem refs_string (a : String) : RefC JCodec.string a [] := by
  intro j hj; simp only [JCodec.string, Option.some.injEq] at hj; subst hj; simp [Json.bomRefs]
theorem refs_bool (a : Bool) : RefC JCodec.bool a [] := by
  intro j hj; simp only [JCodec.bool, Option.some.injEq] at hj; subst hj; simp [Json.bomRefs]
theorem refs_int (a : Int) : RefC JCodec.int a [] := by
  intro j hj; simp only [JCodec.int, Option.some.injEq] at hj; subst hj; simp [Json.bomRefs]

variable [FloatIO]

theorem refs_f32 (a : F32) : RefC JCodec.f32 a [] := by
  intro j hj; simp only [JCodec.f32, Option.map_eq_some_iff] at hj; obtain ⟨_, _, rfl⟩ := hj; simp [Json.bomRefs]
theorem refs_f64 (a : F64) : RefC JCodec.f64 a [] := by
  intro j hj; simp only [JCodec.f64, Option.map_eq_some_iff] at hj; obtain ⟨_, _, rfl⟩ := hj; simp [Json.bomRefs]
theorem refs_bomReference (a : BOMReference) : RefC J.bomReference a [] := by
  intro j hj; simp only [J.bomReference, Option.some.injEq] at hj; subst hj; simp [Json.bomRefs]
theorem refs_specVersion (a : Int) : RefC J.specVersion a [] := by
  intro j hj; simp only [J.specVersion, Option.some.injEq] at hj; subst hj; simp [Json.bomRefs]

theorem rj_ref_val {β : Type} {F : JFields β} {b : BOMReference × β} {L : List String} (h : RefF F b.2 L) :
    RefF (.field "bom-ref" true J.bomReference F) b (ident b.1.val ++ L) := by
  intro ms hm
  simp only [JFields.enc] at hm
  by_cases he : b.1.val = ""
  · simp only [J.bomReference, he, decide_true, Bool.and_self, if_true] at hm
    simpa [ident, he] using h ms hm
  · simp only [J.bomReference, he, decide_false, Bool.and_false, Bool.false_eq_true, if_false,
      Option.map_eq_some_iff] at hm
    obtain ⟨ms', hm', rfl⟩ := hm
    simp [Json.memberRefs, Json.bomRefs, h ms' hm', ident, he]

theorem SameAt.refC {α : Type} {C D : JCodec α} {a : α} {L : List String} (h : SameAt C D a) (hD : RefC D a L) :
    RefC C a L := fun j hj => hD j (h.enc ▸ hj)

theorem rc_ike {σ : Type} {S : JCodec σ} {get : σ → BOMReference} {put : σ → BOMReference → σ} {x : σ}
    (h : RefC S x []) : RefC (J.ikev2 S get put) x [] := by
  intro j hj
  simp only [J.ikev2] at hj
  split at hj
  · simp only [Option.some.injEq] at hj
    subst hj
    simp [Json.bomRefs]
  · exact h j hj


theorem refs_advisory (x : Advisory) : RefC J.advisory x [] := by
  refine (rc_struct (
    rj_plain (by decide) (rf_nil (refs_string _)) <|
    rj_plain (by decide) (rf_nil (refs_string _)) <|
    rj_nil)).eq ?_
  simp only [List.append_nil, List.nil_append, List.append_assoc]

theorem refs_affectedVersions (x : AffectedVersions) : RefC J.affectedVersions x [] := by
  refine (rc_struct (
    rj_plain (by decide) (rf_nil (refs_string _)) <|
    rj_plain (by decide) (rf_nil (refs_string _)) <|
    rj_plain (by decide) (rf_nil (refs_string _)) <|
    rj_nil)).eq ?_
  simp only [List.append_nil, List.nil_append, List.append_assoc]

theorem refs_affects (x : Affects) : RefC J.affects x [] := by
  refine (rc_struct (
    rj_plain (by decide) (rf_nil (refs_string _)) <|
    rj_plain (by decide) (rf_list_nil (fun a _ => refs_affectedVersions a)) <|
    rj_nil)).eq ?_
  simp only [List.append_nil, List.nil_append, List.append_assoc]

theorem refs_attachedText (x : AttachedText) : RefC J.attachedText x [] := by
  refine (rc_struct (
    rj_plain (by decide) (rf_nil (refs_string _)) <|
    rj_plain (by decide) (rf_nil (refs_string _)) <|
    rj_plain (by decide) (rf_nil (refs_string _)) <|
    rj_nil)).eq ?_
  simp only [List.append_nil, List.nil_append, List.append_assoc]

theorem refs_property (x : Property) : RefC J.property x [] := by
  refine (rc_struct (
    rj_plain (by decide) (rf_nil (refs_string _)) <|
    rj_plain (by decide) (rf_nil (refs_string _)) <|
    rj_nil)).eq ?_
  simp only [List.append_nil, List.nil_append, List.append_assoc]

theorem refs_componentDataContents (x : ComponentDataContents) : RefC J.componentDataContents x [] := by
  refine (rc_struct (
    rj_plain (by decide) (rf_opt_nil (fun a _ => refs_attachedText a)) <|
    rj_plain (by decide) (rf_nil (refs_string _)) <|
    rj_plain (by decide) (rf_list_nil (fun a _ => refs_property a)) <|
    rj_nil)).eq ?_
  simp only [List.append_nil, List.nil_append, List.append_assoc]

theorem refs_componentDataGraphic (x : ComponentDataGraphic) : RefC J.componentDataGraphic x [] := by
  refine (rc_struct (
    rj_plain (by decide) (rf_nil (refs_string _)) <|
    rj_plain (by decide) (rf_opt_nil (fun a _ => refs_attachedText a)) <|
    rj_nil)).eq ?_
  simp only [List.append_nil, List.nil_append, List.append_assoc]

theorem refs_componentDataGraphics (x : ComponentDataGraphics) : RefC J.componentDataGraphics x [] := by
  refine (rc_struct (
    rj_plain (by decide) (rf_nil (refs_string _)) <|
    rj_plain (by decide) (rf_list_nil (fun a _ => refs_componentDataGraphic a)) <|
    rj_nil)).eq ?_
  simp only [List.append_nil, List.nil_append, List.append_assoc]

theorem refs_organizationalContact (x : OrganizationalContact) : RefC J.organizationalContact x x.bomRefs := by
  refine (rc_struct (
    rj_ref <|
    rj_plain (by decide) (rf_nil (refs_string _)) <|
    rj_plain (by decide) (rf_nil (refs_string _)) <|
    rj_plain (by decide) (rf_nil (refs_string _)) <|
    rj_nil)).eq ?_
  simp only [OrganizationalContact.bomRefs, OrganizationalContact.toP, List.append_nil, List.nil_append, List.append_assoc]

theorem refs_postalAddress (x : PostalAddress) : RefC J.postalAddress x x.bomRefs := by
  refine (rc_struct (
    rj_ref <|
    rj_plain (by decide) (rf_nil (refs_string _)) <|
    rj_plain (by decide) (rf_nil (refs_string _)) <|
    rj_plain (by decide) (rf_nil (refs_string _)) <|
    rj_plain (by decide) (rf_nil (refs_string _)) <|
    rj_plain (by decide) (rf_nil (refs_string _)) <|
    rj_plain (by decide) (rf_nil (refs_string _)) <|
    rj_nil)).eq ?_
  simp only [PostalAddress.bomRefs, PostalAddress.toP, List.append_nil, List.nil_append, List.append_assoc]

theorem refs_organizationalEntity (x : OrganizationalEntity) : RefC J.organizationalEntity x x.bomRefs := by
  refine (rc_struct (
    rj_ref <|
    rj_plain (by decide) (rf_nil (refs_string _)) <|
    rj_field (by decide) (rf_opt (fun a _ => refs_postalAddress a)) <|
    rj_plain (by decide) (rf_list_nil (fun a _ => refs_string a)) <|
    rj_field (by decide) (rf_list (fun a _ => refs_organizationalContact a)) <|
    rj_nil)).eq ?_
  simp only [OrganizationalEntity.bomRefs, OrganizationalEntity.toP, List.append_nil, List.nil_append, List.append_assoc]

theorem refs_componentDataGovernanceResponsibleParty (x : ComponentDataGovernanceResponsibleParty) : RefC J.componentDataGovernanceResponsibleParty x x.bomRefs := by
  refine (rc_struct (
    rj_field (by decide) (rf_opt (fun a _ => refs_organizationalEntity a)) <|
    rj_field (by decide) (rf_opt (fun a _ => refs_organizationalContact a)) <|
    rj_nil)).eq ?_
  simp only [ComponentDataGovernanceResponsibleParty.bomRefs, ComponentDataGovernanceResponsibleParty.toP, List.append_nil, List.nil_append, List.append_assoc]

theorem refs_dataGovernance (x : DataGovernance) : RefC J.dataGovernance x x.bomRefs := by
  refine (rc_struct (
    rj_field (by decide) (rf_list (fun a _ => refs_componentDataGovernanceResponsibleParty a)) <|
    rj_field (by decide) (rf_list (fun a _ => refs_componentDataGovernanceResponsibleParty a)) <|
    rj_field (by decide) (rf_list (fun a _ => refs_componentDataGovernanceResponsibleParty a)) <|
    rj_nil)).eq ?_
  simp only [DataGovernance.bomRefs, DataGovernance.toP, List.append_nil, List.nil_append, List.append_assoc]

theorem refs_componentData (x : ComponentData) : RefC J.componentData x x.bomRefs := by
  refine (rc_struct (
    rj_ref <|
    rj_plain (by decide) (rf_nil (refs_string _)) <|
    rj_plain (by decide) (rf_nil (refs_string _)) <|
    rj_plain (by decide) (rf_opt_nil (fun a _ => refs_componentDataContents a)) <|
    rj_plain (by decide) (rf_nil (refs_string _)) <|
    rj_plain (by decide) (rf_list_nil (fun a _ => refs_string a)) <|
    rj_plain (by decide) (rf_opt_nil (fun a _ => refs_componentDataGraphics a)) <|
    rj_plain (by decide) (rf_nil (refs_string _)) <|
    rj_field (by decide) (rf_opt (fun a _ => refs_dataGovernance a)) <|
    rj_nil)).eq ?_
  simp only [ComponentData.bomRefs, ComponentData.toP, List.append_nil, List.nil_append, List.append_assoc]

theorem refs_hash (x : Hash) : RefC J.hash x [] := by
  refine (rc_struct (
    rj_plain (by decide) (rf_nil (refs_string _)) <|
    rj_plain (by decide) (rf_nil (refs_string _)) <|
    rj_nil)).eq ?_
  simp only [List.append_nil, List.nil_append, List.append_assoc]

theorem refs_relatedCryptographicAsset (x : RelatedCryptographicAsset) : RefC J.relatedCryptographicAsset x [] := by
  refine (rc_struct (
    rj_plain (by decide) (rf_nil (refs_string _)) <|
    rj_plain (by decide) (rf_nil (refs_string _)) <|
    rj_nil)).eq ?_
  simp only [List.append_nil, List.nil_append, List.append_assoc]

theorem refs_predefinedCertificateState (x : PredefinedCertificateState) : RefC J.predefinedCertificateState x [] := by
  refine (rc_struct (
    rj_plain (by decide) (rf_nil (refs_string _)) <|
    rj_plain (by decide) (rf_nil (refs_string _)) <|
    rj_nil)).eq ?_
  simp only [List.append_nil, List.nil_append, List.append_assoc]

theorem refs_customCertificateState (x : CustomCertificateState) : RefC J.customCertificateState x [] := by
  refine (rc_struct (
    rj_plain (by decide) (rf_nil (refs_string _)) <|
    rj_plain (by decide) (rf_nil (refs_string _)) <|
    rj_plain (by decide) (rf_nil (refs_string _)) <|
    rj_nil)).eq ?_
  simp only [List.append_nil, List.nil_append, List.append_assoc]

theorem refs_certificateState (x : CertificateState) : RefC J.certificateState x [] := by
  intro j hj
  obtain ⟨a, b⟩ := x
  cases a <;> cases b <;> simp only [J.certificateState] at hj
  · simp only [Option.some.injEq] at hj; subst hj; simp [Json.bomRefs, Json.memberRefs]
  · exact refs_customCertificateState _ j hj
  · exact refs_predefinedCertificateState _ j hj
  · cases hj


theorem refs_commonCertificateExtension (x : CommonCertificateExtension) : RefC J.commonCertificateExtension x [] := by
  refine (rc_struct (
    rj_plain (by decide) (rf_nil (refs_string _)) <|
    rj_plain (by decide) (rf_nil (refs_string _)) <|
    rj_nil)).eq ?_
  simp only [List.append_nil, List.nil_append, List.append_assoc]

theorem refs_customCertificateExtension (x : CustomCertificateExtension) : RefC J.customCertificateExtension x [] := by
  refine (rc_struct (
    rj_plain (by decide) (rf_nil (refs_string _)) <|
    rj_plain (by decide) (rf_nil (refs_string _)) <|
    rj_nil)).eq ?_
  simp only [List.append_nil, List.nil_append, List.append_assoc]

theorem refs_certificateExtension (x : CertificateExtension) : RefC J.certificateExtension x [] := by
  intro j hj
  obtain ⟨a, b⟩ := x
  cases a <;> cases b <;> simp only [J.certificateExtension] at hj
  · simp only [Option.some.injEq] at hj; subst hj; simp [Json.bomRefs, Json.memberRefs]
  · exact refs_customCertificateExtension _ j hj
  · exact refs_commonCertificateExtension _ j hj
  · cases hj


theorem refs_certificateProperties (x : CertificateProperties) : RefC J.certificateProperties x [] := by
  refine (rc_struct (
    rj_plain (by decide) (rf_nil (refs_string _)) <|
    rj_plain (by decide) (rf_nil (refs_string _)) <|
    rj_plain (by decide) (rf_nil (refs_string _)) <|
    rj_plain (by decide) (rf_nil (refs_string _)) <|
    rj_plain (by decide) (rf_nil (refs_string _)) <|
    rj_plain (by decide) (rf_nil (refs_bomReference _)) <|
    rj_plain (by decide) (rf_nil (refs_bomReference _)) <|
    rj_plain (by decide) (rf_nil (refs_string _)) <|
    rj_plain (by decide) (rf_nil (refs_string _)) <|
    rj_plain (by decide) (rf_nil (refs_string _)) <|
    rj_plain (by decide) (rf_opt_nil (fun a _ => refs_hash a)) <|
    rj_plain (by decide) (rf_list_nil (fun a _ => refs_certificateState a)) <|
    rj_plain (by decide) (rf_list_nil (fun a _ => refs_certificateExtension a)) <|
    rj_plain (by decide) (rf_list_nil (fun a _ => refs_relatedCryptographicAsset a)) <|
    rj_plain (by decide) (rf_nil (refs_string _)) <|
    rj_plain (by decide) (rf_nil (refs_string _)) <|
    rj_plain (by decide) (rf_nil (refs_string _)) <|
    rj_plain (by decide) (rf_nil (refs_string _)) <|
    rj_plain (by decide) (rf_nil (refs_string _)) <|
    rj_nil)).eq ?_
  simp only [List.append_nil, List.nil_append, List.append_assoc]

theorem refs_cryptoAlgorithmProperties (x : CryptoAlgorithmProperties) : RefC J.cryptoAlgorithmProperties x [] := by
  refine (rc_struct (
    rj_plain (by decide) (rf_nil (refs_string _)) <|
    rj_plain (by decide) (rf_nil (refs_string _)) <|
    rj_plain (by decide) (rf_nil (refs_string _)) <|
    rj_plain (by decide) (rf_nil (refs_string _)) <|
    rj_plain (by decide) (rf_nil (refs_string _)) <|
    rj_plain (by decide) (rf_nil (refs_string _)) <|
    rj_plain (by decide) (rf_nil (refs_string _)) <|
    rj_plain (by decide) (rf_list_nil (fun a _ => refs_string a)) <|
    rj_plain (by decide) (rf_nil (refs_string _)) <|
    rj_plain (by decide) (rf_nil (refs_string _)) <|
    rj_plain (by decide) (rf_list_nil (fun a _ => refs_string a)) <|
    rj_plain (by decide) (rf_opt_nil (fun a _ => refs_int a)) <|
    rj_plain (by decide) (rf_opt_nil (fun a _ => refs_int a)) <|
    rj_nil)).eq ?_
  simp only [List.append_nil, List.nil_append, List.append_assoc]

theorem refs_cipherSuite (x : CipherSuite) : RefC J.cipherSuite x [] := by
  refine (rc_struct (
    rj_plain (by decide) (rf_nil (refs_string _)) <|
    rj_plain (by decide) (rf_list_nil (fun a _ => refs_bomReference a)) <|
    rj_plain (by decide) (rf_list_nil (fun a _ => refs_string a)) <|
    rj_plain (by decide) (rf_list_nil (fun a _ => refs_string a)) <|
    rj_plain (by decide) (rf_list_nil (fun a _ => refs_string a)) <|
    rj_nil)).eq ?_
  simp only [List.append_nil, List.nil_append, List.append_assoc]

theorem refs_ikev2Auth (x : IKEv2Auth) : RefC J.ikev2Auth x [] := by
  refine rc_ike ((rc_struct (
    rj_skip <|
    rj_plain (by decide) (rf_nil (refs_string _)) <|
    rj_plain (by decide) (rf_nil (refs_string _)) <|
    rj_nil)).eq ?_)
  simp only [List.append_nil, List.nil_append, List.append_assoc]

theorem refs_ikev2Enc (x : IKEv2Enc) : RefC J.ikev2Enc x [] := by
  refine rc_ike ((rc_struct (
    rj_skip <|
    rj_plain (by decide) (rf_nil (refs_string _)) <|
    rj_plain (by decide) (rf_opt_nil (fun a _ => refs_int a)) <|
    rj_plain (by decide) (rf_nil (refs_string _)) <|
    rj_nil)).eq ?_)
  simp only [List.append_nil, List.nil_append, List.append_assoc]

theorem refs_ikev2Integ (x : IKEv2Integ) : RefC J.ikev2Integ x [] := by
  refine rc_ike ((rc_struct (
    rj_skip <|
    rj_plain (by decide) (rf_nil (refs_string _)) <|
    rj_plain (by decide) (rf_nil (refs_string _)) <|
    rj_nil)).eq ?_)
  simp only [List.append_nil, List.nil_append, List.append_assoc]

theorem refs_ikev2Ke (x : IKEv2Ke) : RefC J.ikev2Ke x [] := by
  refine rc_ike ((rc_struct (
    rj_skip <|
    rj_plain (by decide) (rf_opt_nil (fun a _ => refs_int a)) <|
    rj_plain (by decide) (rf_nil (refs_string _)) <|
    rj_nil)).eq ?_)
  simp only [List.append_nil, List.nil_append, List.append_assoc]

theorem refs_ikev2Prf (x : IKEv2Prf) : RefC J.ikev2Prf x [] := by
  refine rc_ike ((rc_struct (
    rj_skip <|
    rj_plain (by decide) (rf_nil (refs_string _)) <|
    rj_plain (by decide) (rf_nil (refs_string _)) <|
    rj_nil)).eq ?_)
  simp only [List.append_nil, List.nil_append, List.append_assoc]

theorem refs_ikev2TransformTypes (x : IKEv2TransformTypes) : RefC J.ikev2TransformTypes x [] := by
  refine (rc_struct (
    rj_plain (by decide) (rf_list_nil (fun a _ => refs_ikev2Enc a)) <|
    rj_plain (by decide) (rf_list_nil (fun a _ => refs_ikev2Prf a)) <|
    rj_plain (by decide) (rf_list_nil (fun a _ => refs_ikev2Integ a)) <|
    rj_plain (by decide) (rf_list_nil (fun a _ => refs_ikev2Ke a)) <|
    rj_plain (by decide) (rf_nil (refs_bool _)) <|
    rj_plain (by decide) (rf_list_nil (fun a _ => refs_ikev2Auth a)) <|
    rj_nil)).eq ?_
  simp only [List.append_nil, List.nil_append, List.append_assoc]

theorem refs_cryptoProtocolProperties (x : CryptoProtocolProperties) : RefC J.cryptoProtocolProperties x [] := by
  refine (rc_struct (
    rj_plain (by decide) (rf_nil (refs_string _)) <|
    rj_plain (by decide) (rf_nil (refs_string _)) <|
    rj_plain (by decide) (rf_list_nil (fun a _ => refs_cipherSuite a)) <|
    rj_plain (by decide) (rf_opt_nil (fun a _ => refs_ikev2TransformTypes a)) <|
    rj_plain (by decide) (rf_list_nil (fun a _ => refs_bomReference a)) <|
    rj_plain (by decide) (rf_list_nil (fun a _ => refs_relatedCryptographicAsset a)) <|
    rj_nil)).eq ?_
  simp only [List.append_nil, List.nil_append, List.append_assoc]

theorem refs_securedBy (x : SecuredBy) : RefC J.securedBy x [] := by
  refine (rc_struct (
    rj_plain (by decide) (rf_nil (refs_string _)) <|
    rj_plain (by decide) (rf_nil (refs_bomReference _)) <|
    rj_nil)).eq ?_
  simp only [List.append_nil, List.nil_append, List.append_assoc]

theorem refs_relatedCryptoMaterialProperties (x : RelatedCryptoMaterialProperties) : RefC J.relatedCryptoMaterialProperties x [] := by
  refine (rc_struct (
    rj_plain (by decide) (rf_nil (refs_string _)) <|
    rj_plain (by decide) (rf_nil (refs_string _)) <|
    rj_plain (by decide) (rf_nil (refs_string _)) <|
    rj_plain (by decide) (rf_nil (refs_bomReference _)) <|
    rj_plain (by decide) (rf_nil (refs_string _)) <|
    rj_plain (by decide) (rf_nil (refs_string _)) <|
    rj_plain (by decide) (rf_nil (refs_string _)) <|
    rj_plain (by decide) (rf_nil (refs_string _)) <|
    rj_plain (by decide) (rf_nil (refs_string _)) <|
    rj_plain (by decide) (rf_opt_nil (fun a _ => refs_int a)) <|
    rj_plain (by decide) (rf_nil (refs_string _)) <|
    rj_plain (by decide) (rf_opt_nil (fun a _ => refs_securedBy a)) <|
    rj_plain (by decide) (rf_opt_nil (fun a _ => refs_hash a)) <|
    rj_plain (by decide) (rf_list_nil (fun a _ => refs_relatedCryptographicAsset a)) <|
    rj_nil)).eq ?_
  simp only [List.append_nil, List.nil_append, List.append_assoc]

theorem refs_cryptoProperties (x : CryptoProperties) : RefC J.cryptoProperties x [] := by
  refine (rc_struct (
    rj_plain (by decide) (rf_nil (refs_string _)) <|
    rj_plain (by decide) (rf_opt_nil (fun a _ => refs_cryptoAlgorithmProperties a)) <|
    rj_plain (by decide) (rf_opt_nil (fun a _ => refs_certificateProperties a)) <|
    rj_plain (by decide) (rf_opt_nil (fun a _ => refs_relatedCryptoMaterialProperties a)) <|
    rj_plain (by decide) (rf_opt_nil (fun a _ => refs_cryptoProtocolProperties a)) <|
    rj_plain (by decide) (rf_nil (refs_string _)) <|
    rj_nil)).eq ?_
  simp only [List.append_nil, List.nil_append, List.append_assoc]

theorem refs_callstackFrame (x : CallstackFrame) : RefC J.callstackFrame x [] := by
  refine (rc_struct (
    rj_plain (by decide) (rf_nil (refs_string _)) <|
    rj_plain (by decide) (rf_nil (refs_string _)) <|
    rj_plain (by decide) (rf_nil (refs_string _)) <|
    rj_plain (by decide) (rf_list_nil (fun a _ => refs_string a)) <|
    rj_plain (by decide) (rf_opt_nil (fun a _ => refs_int a)) <|
    rj_plain (by decide) (rf_opt_nil (fun a _ => refs_int a)) <|
    rj_plain (by decide) (rf_nil (refs_string _)) <|
    rj_nil)).eq ?_
  simp only [List.append_nil, List.nil_append, List.append_assoc]

theorem refs_callstack (x : Callstack) : RefC J.callstack x [] := by
  refine (rc_struct (
    rj_plain (by decide) (rf_list_nil (fun a _ => refs_callstackFrame a)) <|
    rj_nil)).eq ?_
  simp only [List.append_nil, List.nil_append, List.append_assoc]

theorem refs_copyright (x : Copyright) : RefC J.copyright x [] := by
  refine (rc_struct (
    rj_plain (by decide) (rf_nil (refs_string _)) <|
    rj_nil)).eq ?_
  simp only [List.append_nil, List.nil_append, List.append_assoc]

theorem refs_evidenceIdentityMethod (x : EvidenceIdentityMethod) : RefC J.evidenceIdentityMethod x [] := by
  refine (rc_struct (
    rj_plain (by decide) (rf_nil (refs_string _)) <|
    rj_plain (by decide) (rf_opt_nil (fun a _ => refs_f32 a)) <|
    rj_plain (by decide) (rf_nil (refs_string _)) <|
    rj_nil)).eq ?_
  simp only [List.append_nil, List.nil_append, List.append_assoc]

theorem refs_evidenceIdentity (x : EvidenceIdentity) : RefC J.evidenceIdentity x [] := by
  refine (rc_struct (
    rj_plain (by decide) (rf_nil (refs_string _)) <|
    rj_plain (by decide) (rf_opt_nil (fun a _ => refs_f32 a)) <|
    rj_plain (by decide) (rf_nil (refs_string _)) <|
    rj_plain (by decide) (rf_list_nil (fun a _ => refs_evidenceIdentityMethod a)) <|
    rj_plain (by decide) (rf_list_nil (fun a _ => refs_bomReference a)) <|
    rj_nil)).eq ?_
  simp only [List.append_nil, List.nil_append, List.append_assoc]

theorem refs_evidenceIdentityChoice (x : EvidenceIdentityChoice) : RefC J.evidenceIdentityChoice x [] := by
  intro j hj
  obtain ⟨a, p⟩ := x
  simp only [J.evidenceIdentityChoice] at hj
  cases a with
  | some i =>
    simp only at hj
    split at hj
    · cases hj
    · exact refs_evidenceIdentity i j hj
  | none =>
    simp only at hj
    split at hj
    · have := rc_list (f := fun _ => []) (fun a _ => refs_evidenceIdentity a) j hj
      rwa [refs_none] at this
    · simp only [Option.some.injEq] at hj
      subst hj
      simp [Json.bomRefs]


theorem refs_evidenceOccurrence (x : EvidenceOccurrence) : RefC J.evidenceOccurrence x x.bomRefs := by
  refine (rc_struct (
    rj_ref <|
    rj_plain (by decide) (rf_nil (refs_string _)) <|
    rj_plain (by decide) (rf_opt_nil (fun a _ => refs_int a)) <|
    rj_plain (by decide) (rf_opt_nil (fun a _ => refs_int a)) <|
    rj_plain (by decide) (rf_nil (refs_string _)) <|
    rj_plain (by decide) (rf_nil (refs_string _)) <|
    rj_nil)).eq ?_
  simp only [EvidenceOccurrence.bomRefs, EvidenceOccurrence.toP, List.append_nil, List.nil_append, List.append_assoc]

theorem refs_organizationalEntityOrContact (x : OrganizationalEntityOrContact) : RefC J.organizationalEntityOrContact x x.bomRefs := by
  refine (rc_struct (
    rj_field (by decide) (rf_opt (fun a _ => refs_organizationalEntity a)) <|
    rj_field (by decide) (rf_opt (fun a _ => refs_organizationalContact a)) <|
    rj_nil)).eq ?_
  simp only [OrganizationalEntityOrContact.bomRefs, OrganizationalEntityOrContact.toP, List.append_nil, List.nil_append, List.append_assoc]

theorem refs_licensing (x : Licensing) : RefC J.licensing x x.bomRefs := by
  refine (rc_struct (
    rj_plain (by decide) (rf_list_nil (fun a _ => refs_string a)) <|
    rj_field (by decide) (rf_opt (fun a _ => refs_organizationalEntityOrContact a)) <|
    rj_field (by decide) (rf_opt (fun a _ => refs_organizationalEntityOrContact a)) <|
    rj_field (by decide) (rf_opt (fun a _ => refs_organizationalEntityOrContact a)) <|
    rj_plain (by decide) (rf_nil (refs_string _)) <|
    rj_plain (by decide) (rf_list_nil (fun a _ => refs_string a)) <|
    rj_plain (by decide) (rf_nil (refs_string _)) <|
    rj_plain (by decide) (rf_nil (refs_string _)) <|
    rj_nil)).eq ?_
  simp only [Licensing.bomRefs, Licensing.toP, List.append_nil, List.nil_append, List.append_assoc]

theorem refs_license (x : License) : RefC J.license x x.bomRefs := by
  suffices h : RefC J.licenseAlias x x.bomRefs by
    intro j hj
    simp only [J.license] at hj
    split at hj
    · cases hj
    · split at hj
      · cases hj
      · exact h j hj
  refine (rc_struct (
    rj_ref <|
    rj_plain (by decide) (rf_nil (refs_string _)) <|
    rj_plain (by decide) (rf_nil (refs_string _)) <|
    rj_plain (by decide) (rf_nil (refs_string _)) <|
    rj_plain (by decide) (rf_opt_nil (fun a _ => refs_attachedText a)) <|
    rj_plain (by decide) (rf_nil (refs_string _)) <|
    rj_field (by decide) (rf_opt (fun a _ => refs_licensing a)) <|
    rj_plain (by decide) (rf_list_nil (fun a _ => refs_property a)) <|
    rj_nil)).eq ?_
  simp only [License.bomRefs, License.toP, List.append_nil, List.nil_append, List.append_assoc]


theorem refs_licenseExpressionDetail (x : LicenseExpressionDetail) : RefC J.licenseExpressionDetail x x.bomRefs := by
  refine (rc_struct (
    rj_plain (by decide) (rf_nil (refs_string _)) <|
    rj_ref <|
    rj_plain (by decide) (rf_opt_nil (fun a _ => refs_attachedText a)) <|
    rj_plain (by decide) (rf_nil (refs_string _)) <|
    rj_nil)).eq ?_
  simp only [LicenseExpressionDetail.bomRefs, LicenseExpressionDetail.toP, List.append_nil, List.nil_append, List.append_assoc]

theorem refs_licenseChoice (x : LicenseChoice) : RefC J.licenseChoice x x.bomRefs := by
  refine (rc_struct (
    rj_field (by decide) (rf_opt (fun a _ => refs_license a)) <|
    rj_plain (by decide) (rf_nil (refs_string _)) <|
    rj_field (by decide) (rf_list (fun a _ => refs_licenseExpressionDetail a)) <|
    rj_plain (by decide) (rf_opt_nil (fun a _ => refs_string a)) <|
    rj_ref <|
    rj_field (by decide) (rf_opt (fun a _ => refs_licensing a)) <|
    rj_plain (by decide) (rf_list_nil (fun a _ => refs_property a)) <|
    rj_nil)).eq ?_
  simp only [LicenseChoice.bomRefs, LicenseChoice.toP, onlyJSON, withText, List.append_nil, List.nil_append, List.append_assoc]

theorem refs_evidence (x : Evidence) : RefC J.evidence x x.bomRefs := by
  refine (rc_struct (
    rj_plain (by decide) (rf_opt_nil (fun a _ => refs_evidenceIdentityChoice a)) <|
    rj_field (by decide) (rf_list (fun a _ => refs_evidenceOccurrence a)) <|
    rj_plain (by decide) (rf_opt_nil (fun a _ => refs_callstack a)) <|
    rj_field (by decide) (rf_list (fun a _ => refs_licenseChoice a)) <|
    rj_plain (by decide) (rf_list_nil (fun a _ => refs_copyright a)) <|
    rj_nil)).eq ?_
  simp only [Evidence.bomRefs, Evidence.toP, List.append_nil, List.nil_append, List.append_assoc]

theorem refs_externalReference (x : ExternalReference) : RefC J.externalReference x [] := by
  refine (rc_struct (
    rj_plain (by decide) (rf_nil (refs_string _)) <|
    rj_plain (by decide) (rf_nil (refs_string _)) <|
    rj_plain (by decide) (rf_list_nil (fun a _ => refs_hash a)) <|
    rj_plain (by decide) (rf_nil (refs_string _)) <|
    rj_plain (by decide) (rf_list_nil (fun a _ => refs_property a)) <|
    rj_nil)).eq ?_
  simp only [List.append_nil, List.nil_append, List.append_assoc]

theorem refs_jsfPublicKey (x : JSFPublicKey) : RefC J.jsfPublicKey x [] := by
  refine (rc_struct (
    rj_plain (by decide) (rf_nil (refs_string _)) <|
    rj_plain (by decide) (rf_nil (refs_string _)) <|
    rj_plain (by decide) (rf_nil (refs_string _)) <|
    rj_plain (by decide) (rf_nil (refs_string _)) <|
    rj_plain (by decide) (rf_nil (refs_string _)) <|
    rj_plain (by decide) (rf_nil (refs_string _)) <|
    rj_nil)).eq ?_
  simp only [List.append_nil, List.nil_append, List.append_assoc]

theorem refs_jsfSigner (x : JSFSigner) : RefC J.jsfSigner x [] := by
  refine (rc_struct (
    rj_plain (by decide) (rf_nil (refs_string _)) <|
    rj_plain (by decide) (rf_nil (refs_string _)) <|
    rj_plain (by decide) (rf_val rfl (refs_jsfPublicKey _)) <|
    rj_plain (by decide) (rf_list_nil (fun a _ => refs_string a)) <|
    rj_plain (by decide) (rf_list_nil (fun a _ => refs_string a)) <|
    rj_plain (by decide) (rf_nil (refs_string _)) <|
    rj_nil)).eq ?_
  simp only [List.append_nil, List.nil_append, List.append_assoc]

theorem refs_jsfSignature (x : JSFSignature) : RefC J.jsfSignature x [] := by
  refine (rc_struct (
    rj_skip <|
    rj_plain (by decide) (rf_list_nil (fun a _ => refs_jsfSigner a)) <|
    rj_plain (by decide) (rf_list_nil (fun a _ => refs_jsfSigner a)) <|
    rj_nil)).eq ?_
  simp only [List.append_nil, List.nil_append, List.append_assoc]

theorem refs_mlModelCO2Measure (x : MLModelCO2Measure) : RefC J.mlModelCO2Measure x [] := by
  refine (rc_struct (
    rj_plain (by decide) (rf_nil (refs_f32 _)) <|
    rj_plain (by decide) (rf_nil (refs_string _)) <|
    rj_nil)).eq ?_
  simp only [List.append_nil, List.nil_append, List.append_assoc]

theorem refs_mlModelEnergyMeasure (x : MLModelEnergyMeasure) : RefC J.mlModelEnergyMeasure x [] := by
  refine (rc_struct (
    rj_plain (by decide) (rf_nil (refs_f32 _)) <|
    rj_plain (by decide) (rf_nil (refs_string _)) <|
    rj_nil)).eq ?_
  simp only [List.append_nil, List.nil_append, List.append_assoc]

theorem refs_mlModelEnergyProvider (x : MLModelEnergyProvider) : RefC J.mlModelEnergyProvider x x.bomRefs := by
  refine (rc_struct (
    rj_ref <|
    rj_plain (by decide) (rf_nil (refs_string _)) <|
    rj_field (by decide) (rf_opt (fun a _ => refs_organizationalEntity a)) <|
    rj_plain (by decide) (rf_nil (refs_string _)) <|
    rj_plain (by decide) (rf_opt_nil (fun a _ => refs_mlModelEnergyMeasure a)) <|
    rj_plain (by decide) (rf_list_nil (fun a _ => refs_externalReference a)) <|
    rj_nil)).eq ?_
  simp only [MLModelEnergyProvider.bomRefs, MLModelEnergyProvider.toP, List.append_nil, List.nil_append, List.append_assoc]

theorem refs_mlModelEnergyConsumption (x : MLModelEnergyConsumption) : RefC J.mlModelEnergyConsumption x x.bomRefs := by
  refine (rc_struct (
    rj_plain (by decide) (rf_nil (refs_string _)) <|
    rj_field (by decide) (rf_list (fun a _ => refs_mlModelEnergyProvider a)) <|
    rj_plain (by decide) (rf_val rfl (refs_mlModelEnergyMeasure _)) <|
    rj_plain (by decide) (rf_opt_nil (fun a _ => refs_mlModelCO2Measure a)) <|
    rj_plain (by decide) (rf_opt_nil (fun a _ => refs_mlModelCO2Measure a)) <|
    rj_plain (by decide) (rf_list_nil (fun a _ => refs_property a)) <|
    rj_nil)).eq ?_
  simp only [MLModelEnergyConsumption.bomRefs, MLModelEnergyConsumption.toP, List.append_nil, List.nil_append, List.append_assoc]

theorem refs_mlModelCardEnvironmentalConsiderations (x : MLModelCardEnvironmentalConsiderations) : RefC J.mlModelCardEnvironmentalConsiderations x x.bomRefs := by
  refine (rc_struct (
    rj_field (by decide) (rf_list (fun a _ => refs_mlModelEnergyConsumption a)) <|
    rj_plain (by decide) (rf_list_nil (fun a _ => refs_property a)) <|
    rj_nil)).eq ?_
  simp only [MLModelCardEnvironmentalConsiderations.bomRefs, MLModelCardEnvironmentalConsiderations.toP, List.append_nil, List.nil_append, List.append_assoc]

theorem refs_mlModelCardEthicalConsideration (x : MLModelCardEthicalConsideration) : RefC J.mlModelCardEthicalConsideration x [] := by
  refine (rc_struct (
    rj_plain (by decide) (rf_nil (refs_string _)) <|
    rj_plain (by decide) (rf_nil (refs_string _)) <|
    rj_nil)).eq ?_
  simp only [List.append_nil, List.nil_append, List.append_assoc]

theorem refs_mlModelCardFairnessAssessment (x : MLModelCardFairnessAssessment) : RefC J.mlModelCardFairnessAssessment x [] := by
  refine (rc_struct (
    rj_plain (by decide) (rf_nil (refs_string _)) <|
    rj_plain (by decide) (rf_nil (refs_string _)) <|
    rj_plain (by decide) (rf_nil (refs_string _)) <|
    rj_plain (by decide) (rf_nil (refs_string _)) <|
    rj_nil)).eq ?_
  simp only [List.append_nil, List.nil_append, List.append_assoc]

theorem refs_mlModelCardConsiderations (x : MLModelCardConsiderations) : RefC J.mlModelCardConsiderations x x.bomRefs := by
  refine (rc_struct (
    rj_plain (by decide) (rf_list_nil (fun a _ => refs_string a)) <|
    rj_plain (by decide) (rf_list_nil (fun a _ => refs_string a)) <|
    rj_plain (by decide) (rf_list_nil (fun a _ => refs_string a)) <|
    rj_plain (by decide) (rf_list_nil (fun a _ => refs_string a)) <|
    rj_plain (by decide) (rf_list_nil (fun a _ => refs_mlModelCardEthicalConsideration a)) <|
    rj_field (by decide) (rf_opt (fun a _ => refs_mlModelCardEnvironmentalConsiderations a)) <|
    rj_plain (by decide) (rf_list_nil (fun a _ => refs_mlModelCardFairnessAssessment a)) <|
    rj_nil)).eq ?_
  simp only [MLModelCardConsiderations.bomRefs, MLModelCardConsiderations.toP, List.append_nil, List.nil_append, List.append_assoc]

theorem refs_mlDatasetChoice (x : MLDatasetChoice) : RefC J.mlDatasetChoice x x.bomRefs := by
  intro j hj
  simp only [J.mlDatasetChoice] at hj
  simp only [MLDatasetChoice.bomRefs]
  split at hj
  · rename_i hr
    simp only [Option.some.injEq] at hj
    subst hj
    rw [if_neg hr]
    simp [Json.bomRefs, Json.memberRefs]
  · rename_i hr
    have hr : x.ref = "" := by simpa using hr
    rw [if_pos hr]
    cases hd : x.componentData with
    | none => simp only [hd, Option.some.injEq] at hj; subst hj; simp [Json.bomRefs, Json.memberRefs]
    | some d =>
      simp only [hd] at hj
      simpa using refs_componentData d j hj


theorem refs_mlInputOutputParameters (x : MLInputOutputParameters) : RefC J.mlInputOutputParameters x [] := by
  refine (rc_struct (
    rj_plain (by decide) (rf_nil (refs_string _)) <|
    rj_nil)).eq ?_
  simp only [List.append_nil, List.nil_append, List.append_assoc]

theorem refs_mlModelParametersApproach (x : MLModelParametersApproach) : RefC J.mlModelParametersApproach x [] := by
  refine (rc_struct (
    rj_plain (by decide) (rf_nil (refs_string _)) <|
    rj_nil)).eq ?_
  simp only [List.append_nil, List.nil_append, List.append_assoc]

theorem refs_mlModelParameters (x : MLModelParameters) : RefC J.mlModelParameters x x.bomRefs := by
  refine (rc_struct (
    rj_plain (by decide) (rf_opt_nil (fun a _ => refs_mlModelParametersApproach a)) <|
    rj_plain (by decide) (rf_nil (refs_string _)) <|
    rj_plain (by decide) (rf_nil (refs_string _)) <|
    rj_plain (by decide) (rf_nil (refs_string _)) <|
    rj_field (by decide) (rf_list (fun a _ => refs_mlDatasetChoice a)) <|
    rj_plain (by decide) (rf_list_nil (fun a _ => refs_mlInputOutputParameters a)) <|
    rj_plain (by decide) (rf_list_nil (fun a _ => refs_mlInputOutputParameters a)) <|
    rj_nil)).eq ?_
  simp only [MLModelParameters.bomRefs, MLModelParameters.toP, List.append_nil, List.nil_append, List.append_assoc]

theorem refs_mlPerformanceMetricConfidenceInterval (x : MLPerformanceMetricConfidenceInterval) : RefC J.mlPerformanceMetricConfidenceInterval x [] := by
  refine (rc_struct (
    rj_plain (by decide) (rf_nil (refs_string _)) <|
    rj_plain (by decide) (rf_nil (refs_string _)) <|
    rj_nil)).eq ?_
  simp only [List.append_nil, List.nil_append, List.append_assoc]

theorem refs_mlPerformanceMetric (x : MLPerformanceMetric) : RefC J.mlPerformanceMetric x [] := by
  refine (rc_struct (
    rj_plain (by decide) (rf_nil (refs_string _)) <|
    rj_plain (by decide) (rf_nil (refs_string _)) <|
    rj_plain (by decide) (rf_nil (refs_string _)) <|
    rj_plain (by decide) (rf_opt_nil (fun a _ => refs_mlPerformanceMetricConfidenceInterval a)) <|
    rj_nil)).eq ?_
  simp only [List.append_nil, List.nil_append, List.append_assoc]

theorem refs_mlQuantitativeAnalysis (x : MLQuantitativeAnalysis) : RefC J.mlQuantitativeAnalysis x [] := by
  refine (rc_struct (
    rj_plain (by decide) (rf_list_nil (fun a _ => refs_mlPerformanceMetric a)) <|
    rj_plain (by decide) (rf_opt_nil (fun a _ => refs_componentDataGraphics a)) <|
    rj_nil)).eq ?_
  simp only [List.append_nil, List.nil_append, List.append_assoc]

theorem refs_mlModelCard (x : MLModelCard) : RefC J.mlModelCard x x.bomRefs := by
  refine (rc_struct (
    rj_ref <|
    rj_field (by decide) (rf_opt (fun a _ => refs_mlModelParameters a)) <|
    rj_plain (by decide) (rf_opt_nil (fun a _ => refs_mlQuantitativeAnalysis a)) <|
    rj_field (by decide) (rf_opt (fun a _ => refs_mlModelCardConsiderations a)) <|
    rj_nil)).eq ?_
  simp only [MLModelCard.bomRefs, MLModelCard.toP, List.append_nil, List.nil_append, List.append_assoc]

theorem refs_identifiableAction (x : IdentifiableAction) : RefC J.identifiableAction x [] := by
  refine (rc_struct (
    rj_plain (by decide) (rf_nil (refs_string _)) <|
    rj_plain (by decide) (rf_nil (refs_string _)) <|
    rj_plain (by decide) (rf_nil (refs_string _)) <|
    rj_nil)).eq ?_
  simp only [List.append_nil, List.nil_append, List.append_assoc]

theorem refs_commit (x : Commit) : RefC J.commit x [] := by
  refine (rc_struct (
    rj_plain (by decide) (rf_nil (refs_string _)) <|
    rj_plain (by decide) (rf_nil (refs_string _)) <|
    rj_plain (by decide) (rf_opt_nil (fun a _ => refs_identifiableAction a)) <|
    rj_plain (by decide) (rf_opt_nil (fun a _ => refs_identifiableAction a)) <|
    rj_plain (by decide) (rf_nil (refs_string _)) <|
    rj_nil)).eq ?_
  simp only [List.append_nil, List.nil_append, List.append_assoc]

theorem refs_diff (x : Diff) : RefC J.diff x [] := by
  refine (rc_struct (
    rj_plain (by decide) (rf_opt_nil (fun a _ => refs_attachedText a)) <|
    rj_plain (by decide) (rf_nil (refs_string _)) <|
    rj_nil)).eq ?_
  simp only [List.append_nil, List.nil_append, List.append_assoc]

theorem refs_source (x : Source) : RefC J.source x [] := by
  refine (rc_struct (
    rj_plain (by decide) (rf_nil (refs_string _)) <|
    rj_plain (by decide) (rf_nil (refs_string _)) <|
    rj_nil)).eq ?_
  simp only [List.append_nil, List.nil_append, List.append_assoc]

theorem refs_issue (x : Issue) : RefC J.issue x [] := by
  refine (rc_struct (
    rj_plain (by decide) (rf_nil (refs_string _)) <|
    rj_plain (by decide) (rf_nil (refs_string _)) <|
    rj_plain (by decide) (rf_nil (refs_string _)) <|
    rj_plain (by decide) (rf_opt_nil (fun a _ => refs_source a)) <|
    rj_plain (by decide) (rf_list_nil (fun a _ => refs_string a)) <|
    rj_plain (by decide) (rf_nil (refs_string _)) <|
    rj_nil)).eq ?_
  simp only [List.append_nil, List.nil_append, List.append_assoc]

theorem refs_patch (x : Patch) : RefC J.patch x [] := by
  refine (rc_struct (
    rj_plain (by decide) (rf_opt_nil (fun a _ => refs_diff a)) <|
    rj_plain (by decide) (rf_list_nil (fun a _ => refs_issue a)) <|
    rj_plain (by decide) (rf_nil (refs_string _)) <|
    rj_nil)).eq ?_
  simp only [List.append_nil, List.nil_append, List.append_assoc]

theorem refs_pedigreeWith (C : JCodec Component) (x : Pedigree Component)
    (h_ancestors : ∀ c ∈ x.ancestors.elems, RefC C c c.bomRefs)
    (h_descendants : ∀ c ∈ x.descendants.elems, RefC C c c.bomRefs)
    (h_variants : ∀ c ∈ x.variants.elems, RefC C c c.bomRefs) : RefC (J.pedigree C) x (refsPedigree x) := by
  refine (rc_struct (
    rj_field (by decide) (rf_list h_ancestors) <|
    rj_field (by decide) (rf_list h_descendants) <|
    rj_field (by decide) (rf_list h_variants) <|
    rj_plain (by decide) (rf_list_nil (fun a _ => refs_commit a)) <|
    rj_plain (by decide) (rf_list_nil (fun a _ => refs_patch a)) <|
    rj_plain (by decide) (rf_nil (refs_string _)) <|
    rj_nil)).eq ?_
  cases x
  simp only [refsPedigree, Pedigree.toP, refsComponents_eq, List.append_nil, List.append_assoc]


theorem refs_note (x : Note) : RefC J.note x [] := by
  refine (rc_struct (
    rj_plain (by decide) (rf_nil (refs_string _)) <|
    rj_plain (by decide) (rf_val rfl (refs_attachedText _)) <|
    rj_nil)).eq ?_
  simp only [List.append_nil, List.nil_append, List.append_assoc]

theorem refs_releaseNotes (x : ReleaseNotes) : RefC J.releaseNotes x [] := by
  refine (rc_struct (
    rj_plain (by decide) (rf_nil (refs_string _)) <|
    rj_plain (by decide) (rf_nil (refs_string _)) <|
    rj_plain (by decide) (rf_nil (refs_string _)) <|
    rj_plain (by decide) (rf_nil (refs_string _)) <|
    rj_plain (by decide) (rf_nil (refs_string _)) <|
    rj_plain (by decide) (rf_nil (refs_string _)) <|
    rj_plain (by decide) (rf_list_nil (fun a _ => refs_string a)) <|
    rj_plain (by decide) (rf_list_nil (fun a _ => refs_string a)) <|
    rj_plain (by decide) (rf_list_nil (fun a _ => refs_issue a)) <|
    rj_plain (by decide) (rf_list_nil (fun a _ => refs_note a)) <|
    rj_plain (by decide) (rf_list_nil (fun a _ => refs_property a)) <|
    rj_nil)).eq ?_
  simp only [List.append_nil, List.nil_append, List.append_assoc]

theorem refs_swid (x : SWID) : RefC J.swid x [] := by
  refine (rc_struct (
    rj_plain (by decide) (rf_opt_nil (fun a _ => refs_attachedText a)) <|
    rj_plain (by decide) (rf_nil (refs_string _)) <|
    rj_plain (by decide) (rf_nil (refs_string _)) <|
    rj_plain (by decide) (rf_nil (refs_string _)) <|
    rj_plain (by decide) (rf_nil (refs_string _)) <|
    rj_plain (by decide) (rf_opt_nil (fun a _ => refs_int a)) <|
    rj_plain (by decide) (rf_opt_nil (fun a _ => refs_bool a)) <|
    rj_nil)).eq ?_
  simp only [List.append_nil, List.nil_append, List.append_assoc]

theorem refs_asserterChoice (x : AsserterChoice) : RefC J.asserterChoice x x.bomRefs := by
  intro j hj
  obtain ⟨a, b, c⟩ := x
  cases a with
  | some o =>
    simp only [J.asserterChoice, Option.map_eq_some_iff] at hj
    obtain ⟨j', h, rfl⟩ := hj
    simp [Json.bomRefs, Json.memberRefs, AsserterChoice.bomRefs, refs_organizationalEntity o j' h]
  | none =>
    cases b with
    | some o =>
      simp only [J.asserterChoice, Option.map_eq_some_iff] at hj
      obtain ⟨j', h, rfl⟩ := hj
      simp [Json.bomRefs, Json.memberRefs, AsserterChoice.bomRefs, refs_organizationalContact o j' h]
    | none =>
      cases c with
      | some o =>
        simp only [J.asserterChoice, Option.map_eq_some_iff] at hj
        obtain ⟨j', h, rfl⟩ := hj
        simp [Json.bomRefs, Json.memberRefs, AsserterChoice.bomRefs, refs_bomReference o j' h]
      | none =>
        simp only [J.asserterChoice, Option.some.injEq] at hj
        subst hj
        simp [Json.bomRefs, Json.memberRefs, AsserterChoice.bomRefs]


theorem refs_patentAssertion (x : PatentAssertion) : RefC J.patentAssertion x x.bomRefs := by
  refine (rc_struct (
    rj_ref <|
    rj_plain (by decide) (rf_list_nil (fun a _ => refs_bomReference a)) <|
    rj_plain (by decide) (rf_nil (refs_string _)) <|
    rj_field (by decide) (rf_opt (fun a _ => refs_asserterChoice a)) <|
    rj_plain (by decide) (rf_nil (refs_string _)) <|
    rj_nil)).eq ?_
  simp only [PatentAssertion.bomRefs, PatentAssertion.toP, List.append_nil, List.nil_append, List.append_assoc]

theorem refs_componentWith (C : JCodec Component) (x : Component)
    (h_components : ∀ c ∈ x.components.elems, RefC C c c.bomRefs)
    (h_pedigree : ∀ p ∈ x.pedigree, RefC (J.pedigree C) p (refsPedigree p)) :
    RefC (J.componentWith C) x x.bomRefs := by
  refine (rc_struct (
    rj_ref <|
    rj_plain (by decide) (rf_nil (refs_string _)) <|
    rj_plain (by decide) (rf_nil (refs_string _)) <|
    rj_field (by decide) (rf_opt (fun a _ => refs_organizationalEntity a)) <|
    rj_field (by decide) (rf_opt (fun a _ => refs_organizationalEntity a)) <|
    rj_plain (by decide) (rf_nil (refs_string _)) <|
    rj_field (by decide) (rf_list (fun a _ => refs_organizationalContact a)) <|
    rj_plain (by decide) (rf_nil (refs_string _)) <|
    rj_plain (by decide) (rf_nil (refs_string _)) <|
    rj_plain (by decide) (rf_nil (refs_string _)) <|
    rj_plain (by decide) (rf_nil (refs_string _)) <|
    rj_plain (by decide) (rf_nil (refs_string _)) <|
    rj_plain (by decide) (rf_nil (refs_string _)) <|
    rj_plain (by decide) (rf_list_nil (fun a _ => refs_hash a)) <|
    rj_field (by decide) (rf_list (fun a _ => refs_licenseChoice a)) <|
    rj_plain (by decide) (rf_nil (refs_string _)) <|
    rj_plain (by decide) (rf_nil (refs_string _)) <|
    rj_plain (by decide) (rf_nil (refs_string _)) <|
    rj_plain (by decide) (rf_list_nil (fun a _ => refs_string a)) <|
    rj_plain (by decide) (rf_list_nil (fun a _ => refs_string a)) <|
    rj_plain (by decide) (rf_opt_nil (fun a _ => refs_swid a)) <|
    rj_plain (by decide) (rf_opt_nil (fun a _ => refs_bool a)) <|
    rj_field (by decide) (rf_opt h_pedigree) <|
    rj_plain (by decide) (rf_list_nil (fun a _ => refs_externalReference a)) <|
    rj_plain (by decide) (rf_list_nil (fun a _ => refs_property a)) <|
    rj_field (by decide) (rf_list h_components) <|
    rj_field (by decide) (rf_opt (fun a _ => refs_evidence a)) <|
    rj_plain (by decide) (rf_opt_nil (fun a _ => refs_releaseNotes a)) <|
    rj_field (by decide) (rf_opt (fun a _ => refs_mlModelCard a)) <|
    rj_field (by decide) (rf_list (fun a _ => refs_componentData a)) <|
    rj_plain (by decide) (rf_opt_nil (fun a _ => refs_cryptoProperties a)) <|
    rj_plain (by decide) (rf_list_nil (fun a _ => refs_string a)) <|
    rj_plain (by decide) (rf_opt_nil (fun a _ => refs_bool a)) <|
    rj_field (by decide) (rf_list (fun a _ => refs_patentAssertion a)) <|
    rj_plain (by decide) (rf_nil (refs_string _)) <|
    rj_plain (by decide) (rf_opt_nil (fun a _ => refs_jsfSignature a)) <|
    rj_nil)).eq ?_
  cases x
  simp only [Component.bomRefs, Component.toP, refsComponents_eq, refsPedigreeOpt_eq, List.append_nil, List.append_assoc]

theorem refs_component (x : Component) : RefC J.component x x.bomRefs := by
  suffices H : ∀ n (x : Component), x.height ≤ n → RefC J.component x x.bomRefs from H x.height x (Nat.le_refl _)
  intro n
  induction n with
  | zero => intro x h; rw [Component.height_eq] at h; omega
  | succ n ih =>
    intro x h
    refine (component_sameAt_self x).refC ?_
    rw [Component.height_eq] at h
    have hm : max (heightComponents x.components) (heightPedigreeOpt x.pedigree) ≤ n := by omega
    rw [Nat.max_le] at hm
    have hl : ∀ p : PSlice Component, heightComponents p ≤ n → ∀ c ∈ p.elems, RefC J.component c c.bomRefs := by
      intro p hp
      rw [heightComponents_le] at hp
      exact fun c hc => ih c (hp c hc)
    refine refs_componentWith _ x (hl _ hm.1) ?_
    intro p hp
    have hp : x.pedigree = some p := hp
    have hm := hm.2
    simp only [hp, heightPedigreeOpt, heightPedigree_eq, Nat.max_le] at hm
    exact refs_pedigreeWith _ p (hl _ hm.1) (hl _ hm.2.1) (hl _ hm.2.2)


theorem refs_dataClassification (x : DataClassification) : RefC J.dataClassification x x.bomRefs := by
  refine (rc_struct (
    rj_plain (by decide) (rf_nil (refs_string _)) <|
    rj_plain (by decide) (rf_nil (refs_string _)) <|
    rj_plain (by decide) (rf_nil (refs_string _)) <|
    rj_plain (by decide) (rf_nil (refs_string _)) <|
    rj_field (by decide) (rf_opt (fun a _ => refs_dataGovernance a)) <|
    rj_plain (by decide) (rf_list_nil (fun a _ => refs_string a)) <|
    rj_plain (by decide) (rf_list_nil (fun a _ => refs_string a)) <|
    rj_nil)).eq ?_
  simp only [DataClassification.bomRefs, DataClassification.toP, List.append_nil, List.nil_append, List.append_assoc]

theorem refs_serviceWith (C : JCodec Service) (x : Service)
    (h_services : ∀ c ∈ x.services.elems, RefC C c c.bomRefs) : RefC (J.serviceWith C) x x.bomRefs := by
  refine (rc_struct (
    rj_ref <|
    rj_field (by decide) (rf_opt (fun a _ => refs_organizationalEntity a)) <|
    rj_plain (by decide) (rf_nil (refs_string _)) <|
    rj_plain (by decide) (rf_nil (refs_string _)) <|
    rj_plain (by decide) (rf_nil (refs_string _)) <|
    rj_plain (by decide) (rf_nil (refs_string _)) <|
    rj_plain (by decide) (rf_list_nil (fun a _ => refs_string a)) <|
    rj_plain (by decide) (rf_opt_nil (fun a _ => refs_bool a)) <|
    rj_plain (by decide) (rf_opt_nil (fun a _ => refs_bool a)) <|
    rj_field (by decide) (rf_list (fun a _ => refs_dataClassification a)) <|
    rj_field (by decide) (rf_list (fun a _ => refs_licenseChoice a)) <|
    rj_plain (by decide) (rf_list_nil (fun a _ => refs_externalReference a)) <|
    rj_plain (by decide) (rf_list_nil (fun a _ => refs_property a)) <|
    rj_field (by decide) (rf_list h_services) <|
    rj_plain (by decide) (rf_opt_nil (fun a _ => refs_releaseNotes a)) <|
    rj_plain (by decide) (rf_list_nil (fun a _ => refs_string a)) <|
    rj_plain (by decide) (rf_nil (refs_string _)) <|
    rj_field (by decide) (rf_list (fun a _ => refs_patentAssertion a)) <|
    rj_plain (by decide) (rf_opt_nil (fun a _ => refs_jsfSignature a)) <|
    rj_nil)).eq ?_
  cases x
  simp only [Service.bomRefs, Service.toP, refsServices_eq, List.append_nil, List.append_assoc]

theorem refs_service (x : Service) : RefC J.service x x.bomRefs := by
  suffices H : ∀ n (x : Service), x.height ≤ n → RefC J.service x x.bomRefs from H x.height x (Nat.le_refl _)
  intro n
  induction n with
  | zero => intro x h; rw [Service.height_eq] at h; omega
  | succ n ih =>
    intro x h
    refine (service_sameAt_self x).refC ?_
    rw [Service.height_eq] at h
    have hm : heightServices x.services ≤ n := by omega
    rw [heightServices_le] at hm
    exact refs_serviceWith _ x fun c hc => ih c (hm c hc)


theorem refs_annotator (x : Annotator) : RefC J.annotator x x.bomRefs := by
  refine (rc_struct (
    rj_field (by decide) (rf_opt (fun a _ => refs_organizationalEntity a)) <|
    rj_field (by decide) (rf_opt (fun a _ => refs_organizationalContact a)) <|
    rj_field (by decide) (rf_opt (fun a _ => refs_component a)) <|
    rj_field (by decide) (rf_opt (fun a _ => refs_service a)) <|
    rj_nil)).eq ?_
  simp only [Annotator.bomRefs, Annotator.toP, List.append_nil, List.nil_append, List.append_assoc]

theorem refs_annotation (x : Annotation) : RefC J.annotation x x.bomRefs := by
  refine (rc_struct (
    rj_ref <|
    rj_plain (by decide) (rf_list_nil (fun a _ => refs_bomReference a)) <|
    rj_field (by decide) (rf_opt (fun a _ => refs_annotator a)) <|
    rj_plain (by decide) (rf_nil (refs_string _)) <|
    rj_plain (by decide) (rf_nil (refs_string _)) <|
    rj_plain (by decide) (rf_opt_nil (fun a _ => refs_jsfSignature a)) <|
    rj_nil)).eq ?_
  simp only [Annotation.bomRefs, Annotation.toP, List.append_nil, List.nil_append, List.append_assoc]

theorem refs_assessor (x : Assessor) : RefC J.assessor x x.bomRefs := by
  refine (rc_struct (
    rj_ref_val <|
    rj_plain (by decide) (rf_nil (refs_bool _)) <|
    rj_field (by decide) (rf_opt (fun a _ => refs_organizationalEntity a)) <|
    rj_nil)).eq ?_
  simp only [Assessor.bomRefs, Assessor.toP, List.append_nil, List.nil_append, List.append_assoc]

theorem refs_attestationConformance (x : AttestationConformance) : RefC J.attestationConformance x [] := by
  refine (rc_struct (
    rj_plain (by decide) (rf_opt_nil (fun a _ => refs_f64 a)) <|
    rj_plain (by decide) (rf_nil (refs_string _)) <|
    rj_plain (by decide) (rf_list_nil (fun a _ => refs_bomReference a)) <|
    rj_nil)).eq ?_
  simp only [List.append_nil, List.nil_append, List.append_assoc]

theorem refs_attestationConfidence (x : AttestationConfidence) : RefC J.attestationConfidence x [] := by
  refine (rc_struct (
    rj_plain (by decide) (rf_opt_nil (fun a _ => refs_f64 a)) <|
    rj_plain (by decide) (rf_nil (refs_string _)) <|
    rj_nil)).eq ?_
  simp only [List.append_nil, List.nil_append, List.append_assoc]

theorem refs_attestationMap (x : AttestationMap) : RefC J.attestationMap x [] := by
  refine (rc_struct (
    rj_plain (by decide) (rf_nil (refs_string _)) <|
    rj_plain (by decide) (rf_list_nil (fun a _ => refs_bomReference a)) <|
    rj_plain (by decide) (rf_list_nil (fun a _ => refs_bomReference a)) <|
    rj_plain (by decide) (rf_opt_nil (fun a _ => refs_attestationConformance a)) <|
    rj_plain (by decide) (rf_opt_nil (fun a _ => refs_attestationConfidence a)) <|
    rj_nil)).eq ?_
  simp only [List.append_nil, List.nil_append, List.append_assoc]

theorem refs_attestation (x : Attestation) : RefC J.attestation x [] := by
  refine (rc_struct (
    rj_plain (by decide) (rf_nil (refs_string _)) <|
    rj_plain (by decide) (rf_nil (refs_bomReference _)) <|
    rj_plain (by decide) (rf_list_nil (fun a _ => refs_attestationMap a)) <|
    rj_plain (by decide) (rf_opt_nil (fun a _ => refs_jsfSignature a)) <|
    rj_nil)).eq ?_
  simp only [List.append_nil, List.nil_append, List.append_assoc]

theorem refs_composition (x : Composition) : RefC J.composition x x.bomRefs := by
  refine (rc_struct (
    rj_ref <|
    rj_plain (by decide) (rf_nil (refs_string _)) <|
    rj_plain (by decide) (rf_list_nil (fun a _ => refs_bomReference a)) <|
    rj_plain (by decide) (rf_list_nil (fun a _ => refs_bomReference a)) <|
    rj_plain (by decide) (rf_list_nil (fun a _ => refs_bomReference a)) <|
    rj_plain (by decide) (rf_opt_nil (fun a _ => refs_jsfSignature a)) <|
    rj_nil)).eq ?_
  simp only [Composition.bomRefs, Composition.toP, List.append_nil, List.nil_append, List.append_assoc]

theorem refs_claim (x : Claim) : RefC J.claim x x.bomRefs := by
  refine (rc_struct (
    rj_ref <|
    rj_plain (by decide) (rf_nil (refs_bomReference _)) <|
    rj_plain (by decide) (rf_nil (refs_string _)) <|
    rj_plain (by decide) (rf_list_nil (fun a _ => refs_bomReference a)) <|
    rj_plain (by decide) (rf_nil (refs_string _)) <|
    rj_plain (by decide) (rf_list_nil (fun a _ => refs_bomReference a)) <|
    rj_plain (by decide) (rf_list_nil (fun a _ => refs_bomReference a)) <|
    rj_plain (by decide) (rf_list_nil (fun a _ => refs_externalReference a)) <|
    rj_plain (by decide) (rf_opt_nil (fun a _ => refs_jsfSignature a)) <|
    rj_nil)).eq ?_
  simp only [Claim.bomRefs, Claim.toP, List.append_nil, List.nil_append, List.append_assoc]

theorem refs_evidenceDataContents (x : EvidenceDataContents) : RefC J.evidenceDataContents x [] := by
  refine (rc_struct (
    rj_plain (by decide) (rf_opt_nil (fun a _ => refs_attachedText a)) <|
    rj_plain (by decide) (rf_nil (refs_string _)) <|
    rj_nil)).eq ?_
  simp only [List.append_nil, List.nil_append, List.append_assoc]

theorem refs_evidenceData (x : EvidenceData) : RefC J.evidenceData x x.bomRefs := by
  refine (rc_struct (
    rj_plain (by decide) (rf_nil (refs_string _)) <|
    rj_plain (by decide) (rf_opt_nil (fun a _ => refs_evidenceDataContents a)) <|
    rj_field (by decide) (rf_opt (fun a _ => refs_dataClassification a)) <|
    rj_plain (by decide) (rf_list_nil (fun a _ => refs_string a)) <|
    rj_field (by decide) (rf_opt (fun a _ => refs_dataGovernance a)) <|
    rj_nil)).eq ?_
  simp only [EvidenceData.bomRefs, EvidenceData.toP, List.append_nil, List.nil_append, List.append_assoc]

theorem refs_declarationEvidence (x : DeclarationEvidence) : RefC J.declarationEvidence x x.bomRefs := by
  refine (rc_struct (
    rj_ref <|
    rj_plain (by decide) (rf_nil (refs_string _)) <|
    rj_plain (by decide) (rf_nil (refs_string _)) <|
    rj_field (by decide) (rf_list (fun a _ => refs_evidenceData a)) <|
    rj_plain (by decide) (rf_nil (refs_string _)) <|
    rj_plain (by decide) (rf_nil (refs_string _)) <|
    rj_field (by decide) (rf_opt (fun a _ => refs_organizationalContact a)) <|
    rj_field (by decide) (rf_opt (fun a _ => refs_organizationalContact a)) <|
    rj_plain (by decide) (rf_opt_nil (fun a _ => refs_jsfSignature a)) <|
    rj_nil)).eq ?_
  simp only [DeclarationEvidence.bomRefs, DeclarationEvidence.toP, List.append_nil, List.nil_append, List.append_assoc]

theorem refs_targets (x : Targets) : RefC J.targets x x.bomRefs := by
  refine (rc_struct (
    rj_field (by decide) (rf_list (fun a _ => refs_organizationalEntity a)) <|
    rj_field (by decide) (rf_list (fun a _ => refs_component a)) <|
    rj_field (by decide) (rf_list (fun a _ => refs_service a)) <|
    rj_nil)).eq ?_
  simp only [Targets.bomRefs, Targets.toP, List.append_nil, List.nil_append, List.append_assoc]

theorem refs_signatory (x : Signatory) : RefC J.signatory x x.bomRefs := by
  refine (rc_struct (
    rj_plain (by decide) (rf_nil (refs_string _)) <|
    rj_plain (by decide) (rf_nil (refs_string _)) <|
    rj_plain (by decide) (rf_opt_nil (fun a _ => refs_jsfSignature a)) <|
    rj_field (by decide) (rf_opt (fun a _ => refs_organizationalEntity a)) <|
    rj_plain (by decide) (rf_opt_nil (fun a _ => refs_externalReference a)) <|
    rj_nil)).eq ?_
  simp only [Signatory.bomRefs, Signatory.toP, List.append_nil, List.nil_append, List.append_assoc]

theorem refs_affirmation (x : Affirmation) : RefC J.affirmation x x.bomRefs := by
  refine (rc_struct (
    rj_plain (by decide) (rf_nil (refs_string _)) <|
    rj_field (by decide) (rf_list (fun a _ => refs_signatory a)) <|
    rj_plain (by decide) (rf_opt_nil (fun a _ => refs_jsfSignature a)) <|
    rj_nil)).eq ?_
  simp only [Affirmation.bomRefs, Affirmation.toP, List.append_nil, List.nil_append, List.append_assoc]

theorem refs_declarations (x : Declarations) : RefC J.declarations x x.bomRefs := by
  refine (rc_struct (
    rj_field (by decide) (rf_list (fun a _ => refs_assessor a)) <|
    rj_plain (by decide) (rf_list_nil (fun a _ => refs_attestation a)) <|
    rj_field (by decide) (rf_list (fun a _ => refs_claim a)) <|
    rj_field (by decide) (rf_list (fun a _ => refs_declarationEvidence a)) <|
    rj_field (by decide) (rf_opt (fun a _ => refs_targets a)) <|
    rj_field (by decide) (rf_opt (fun a _ => refs_affirmation a)) <|
    rj_plain (by decide) (rf_opt_nil (fun a _ => refs_jsfSignature a)) <|
    rj_nil)).eq ?_
  simp only [Declarations.bomRefs, Declarations.toP, List.append_nil, List.nil_append, List.append_assoc]

theorem refs_priorityApplication (x : PriorityApplication) : RefC J.priorityApplication x [] := by
  refine (rc_struct (
    rj_plain (by decide) (rf_nil (refs_string _)) <|
    rj_plain (by decide) (rf_nil (refs_string _)) <|
    rj_plain (by decide) (rf_nil (refs_string _)) <|
    rj_nil)).eq ?_
  simp only [List.append_nil, List.nil_append, List.append_assoc]

theorem refs_patent (x : Patent) : RefC J.patent x x.bomRefs := by
  refine (rc_struct (
    rj_ref <|
    rj_plain (by decide) (rf_nil (refs_string _)) <|
    rj_plain (by decide) (rf_nil (refs_string _)) <|
    rj_plain (by decide) (rf_nil (refs_string _)) <|
    rj_plain (by decide) (rf_opt_nil (fun a _ => refs_priorityApplication a)) <|
    rj_plain (by decide) (rf_nil (refs_string _)) <|
    rj_plain (by decide) (rf_nil (refs_string _)) <|
    rj_plain (by decide) (rf_nil (refs_string _)) <|
    rj_plain (by decide) (rf_nil (refs_string _)) <|
    rj_plain (by decide) (rf_nil (refs_string _)) <|
    rj_plain (by decide) (rf_nil (refs_string _)) <|
    rj_plain (by decide) (rf_nil (refs_string _)) <|
    rj_field (by decide) (rf_list (fun a _ => refs_organizationalEntityOrContact a)) <|
    rj_plain (by decide) (rf_list_nil (fun a _ => refs_externalReference a)) <|
    rj_nil)).eq ?_
  simp only [Patent.bomRefs, Patent.toP, List.append_nil, List.nil_append, List.append_assoc]

theorem refs_patentFamily (x : PatentFamily) : RefC J.patentFamily x x.bomRefs := by
  refine (rc_struct (
    rj_ref <|
    rj_plain (by decide) (rf_nil (refs_string _)) <|
    rj_plain (by decide) (rf_opt_nil (fun a _ => refs_priorityApplication a)) <|
    rj_plain (by decide) (rf_list_nil (fun a _ => refs_bomReference a)) <|
    rj_plain (by decide) (rf_list_nil (fun a _ => refs_externalReference a)) <|
    rj_nil)).eq ?_
  simp only [PatentFamily.bomRefs, PatentFamily.toP, List.append_nil, List.nil_append, List.append_assoc]

theorem refs_patentChoice (x : PatentChoice) : RefC J.patentChoice x x.bomRefs := by
  intro j hj
  obtain ⟨a, b⟩ := x
  cases a <;> cases b <;> simp only [J.patentChoice] at hj
  · simp only [Option.some.injEq] at hj; subst hj; simp [PatentChoice.bomRefs, Json.bomRefs, Json.memberRefs]
  · simp [PatentChoice.bomRefs, refs_patentFamily _ j hj]
  · simp [PatentChoice.bomRefs, refs_patent _ j hj]
  · simp [PatentChoice.bomRefs, refs_patent _ j hj]


theorem refs_standardRequirement (x : StandardRequirement) : RefC J.standardRequirement x x.bomRefs := by
  refine (rc_struct (
    rj_ref <|
    rj_plain (by decide) (rf_nil (refs_string _)) <|
    rj_plain (by decide) (rf_nil (refs_string _)) <|
    rj_plain (by decide) (rf_nil (refs_string _)) <|
    rj_plain (by decide) (rf_list_nil (fun a _ => refs_string a)) <|
    rj_plain (by decide) (rf_list_nil (fun a _ => refs_string a)) <|
    rj_plain (by decide) (rf_nil (refs_string _)) <|
    rj_plain (by decide) (rf_list_nil (fun a _ => refs_property a)) <|
    rj_plain (by decide) (rf_list_nil (fun a _ => refs_externalReference a)) <|
    rj_nil)).eq ?_
  simp only [StandardRequirement.bomRefs, StandardRequirement.toP, List.append_nil, List.nil_append, List.append_assoc]

theorem refs_standardLevel (x : StandardLevel) : RefC J.standardLevel x x.bomRefs := by
  refine (rc_struct (
    rj_ref <|
    rj_plain (by decide) (rf_nil (refs_string _)) <|
    rj_plain (by decide) (rf_nil (refs_string _)) <|
    rj_plain (by decide) (rf_nil (refs_string _)) <|
    rj_plain (by decide) (rf_list_nil (fun a _ => refs_string a)) <|
    rj_nil)).eq ?_
  simp only [StandardLevel.bomRefs, StandardLevel.toP, List.append_nil, List.nil_append, List.append_assoc]

theorem refs_standardDefinition (x : StandardDefinition) : RefC J.standardDefinition x x.bomRefs := by
  refine (rc_struct (
    rj_ref <|
    rj_plain (by decide) (rf_nil (refs_string _)) <|
    rj_plain (by decide) (rf_nil (refs_string _)) <|
    rj_plain (by decide) (rf_nil (refs_string _)) <|
    rj_plain (by decide) (rf_nil (refs_string _)) <|
    rj_field (by decide) (rf_list (fun a _ => refs_standardRequirement a)) <|
    rj_field (by decide) (rf_list (fun a _ => refs_standardLevel a)) <|
    rj_plain (by decide) (rf_list_nil (fun a _ => refs_externalReference a)) <|
    rj_plain (by decide) (rf_opt_nil (fun a _ => refs_jsfSignature a)) <|
    rj_nil)).eq ?_
  simp only [StandardDefinition.bomRefs, StandardDefinition.toP, List.append_nil, List.nil_append, List.append_assoc]

theorem refs_definitions (x : Definitions) : RefC J.definitions x x.bomRefs := by
  refine (rc_struct (
    rj_field (by decide) (rf_list (fun a _ => refs_standardDefinition a)) <|
    rj_field (by decide) (rf_list (fun a _ => refs_patentChoice a)) <|
    rj_nil)).eq ?_
  simp only [Definitions.bomRefs, Definitions.toP, List.append_nil, List.nil_append, List.append_assoc]

theorem refs_dependency (x : Dependency) : RefC J.dependency x [] := by
  refine (rc_struct (
    rj_plain (by decide) (rf_nil (refs_string _)) <|
    rj_plain (by decide) (rf_list_nil (fun a _ => refs_string a)) <|
    rj_plain (by decide) (rf_list_nil (fun a _ => refs_string a)) <|
    rj_nil)).eq ?_
  simp only [List.append_nil, List.nil_append, List.append_assoc]

theorem refs_resourceReferenceChoice (x : ResourceReferenceChoice) : RefC J.resourceReferenceChoice x [] := by
  refine (rc_struct (
    rj_plain (by decide) (rf_nil (refs_string _)) <|
    rj_plain (by decide) (rf_opt_nil (fun a _ => refs_externalReference a)) <|
    rj_nil)).eq ?_
  simp only [List.append_nil, List.nil_append, List.append_assoc]

theorem refs_environmentVariableChoice (x : EnvironmentVariableChoice) : RefC J.environmentVariableChoice x [] := by
  intro j hj
  have hs : ∀ j, (if x.value ≠ "" then some (Json.str x.value) else some (.obj [])) = some j → j.bomRefs = [] := by
    intro j hj
    split at hj <;> simp only [Option.some.injEq] at hj <;> subst hj <;> simp [Json.bomRefs, Json.memberRefs]
  simp only [J.environmentVariableChoice] at hj
  split at hj
  · split at hj
    · exact refs_property _ j hj
    · exact hs j hj
  · exact hs j hj


theorem refs_parameter (x : Parameter) : RefC J.parameter x [] := by
  refine (rc_struct (
    rj_plain (by decide) (rf_nil (refs_string _)) <|
    rj_plain (by decide) (rf_nil (refs_string _)) <|
    rj_plain (by decide) (rf_nil (refs_string _)) <|
    rj_nil)).eq ?_
  simp only [List.append_nil, List.nil_append, List.append_assoc]

theorem refs_taskInput (x : TaskInput) : RefC J.taskInput x [] := by
  refine (rc_struct (
    rj_plain (by decide) (rf_opt_nil (fun a _ => refs_resourceReferenceChoice a)) <|
    rj_plain (by decide) (rf_list_nil (fun a _ => refs_parameter a)) <|
    rj_plain (by decide) (rf_list_nil (fun a _ => refs_environmentVariableChoice a)) <|
    rj_plain (by decide) (rf_opt_nil (fun a _ => refs_attachedText a)) <|
    rj_plain (by decide) (rf_opt_nil (fun a _ => refs_resourceReferenceChoice a)) <|
    rj_plain (by decide) (rf_opt_nil (fun a _ => refs_resourceReferenceChoice a)) <|
    rj_plain (by decide) (rf_list_nil (fun a _ => refs_property a)) <|
    rj_nil)).eq ?_
  simp only [List.append_nil, List.nil_append, List.append_assoc]

theorem refs_taskOutput (x : TaskOutput) : RefC J.taskOutput x [] := by
  refine (rc_struct (
    rj_plain (by decide) (rf_opt_nil (fun a _ => refs_resourceReferenceChoice a)) <|
    rj_plain (by decide) (rf_list_nil (fun a _ => refs_parameter a)) <|
    rj_plain (by decide) (rf_list_nil (fun a _ => refs_environmentVariableChoice a)) <|
    rj_plain (by decide) (rf_opt_nil (fun a _ => refs_attachedText a)) <|
    rj_plain (by decide) (rf_nil (refs_string _)) <|
    rj_plain (by decide) (rf_opt_nil (fun a _ => refs_resourceReferenceChoice a)) <|
    rj_plain (by decide) (rf_opt_nil (fun a _ => refs_resourceReferenceChoice a)) <|
    rj_plain (by decide) (rf_list_nil (fun a _ => refs_property a)) <|
    rj_nil)).eq ?_
  simp only [List.append_nil, List.nil_append, List.append_assoc]

theorem refs_taskCommand (x : TaskCommand) : RefC J.taskCommand x [] := by
  refine (rc_struct (
    rj_plain (by decide) (rf_nil (refs_string _)) <|
    rj_plain (by decide) (rf_list_nil (fun a _ => refs_property a)) <|
    rj_nil)).eq ?_
  simp only [List.append_nil, List.nil_append, List.append_assoc]

theorem refs_taskStep (x : TaskStep) : RefC J.taskStep x [] := by
  refine (rc_struct (
    rj_plain (by decide) (rf_nil (refs_string _)) <|
    rj_plain (by decide) (rf_nil (refs_string _)) <|
    rj_plain (by decide) (rf_list_nil (fun a _ => refs_taskCommand a)) <|
    rj_plain (by decide) (rf_list_nil (fun a _ => refs_property a)) <|
    rj_nil)).eq ?_
  simp only [List.append_nil, List.nil_append, List.append_assoc]

theorem refs_event (x : Event) : RefC J.event x [] := by
  refine (rc_struct (
    rj_plain (by decide) (rf_nil (refs_string _)) <|
    rj_plain (by decide) (rf_nil (refs_string _)) <|
    rj_plain (by decide) (rf_nil (refs_string _)) <|
    rj_plain (by decide) (rf_opt_nil (fun a _ => refs_attachedText a)) <|
    rj_plain (by decide) (rf_opt_nil (fun a _ => refs_resourceReferenceChoice a)) <|
    rj_plain (by decide) (rf_opt_nil (fun a _ => refs_resourceReferenceChoice a)) <|
    rj_plain (by decide) (rf_list_nil (fun a _ => refs_property a)) <|
    rj_nil)).eq ?_
  simp only [List.append_nil, List.nil_append, List.append_assoc]

theorem refs_taskTriggerCondition (x : TaskTriggerCondition) : RefC J.taskTriggerCondition x [] := by
  refine (rc_struct (
    rj_plain (by decide) (rf_nil (refs_string _)) <|
    rj_plain (by decide) (rf_nil (refs_string _)) <|
    rj_plain (by decide) (rf_list_nil (fun a _ => refs_property a)) <|
    rj_nil)).eq ?_
  simp only [List.append_nil, List.nil_append, List.append_assoc]

theorem refs_taskTrigger (x : TaskTrigger) : RefC J.taskTrigger x x.bomRefs := by
  refine (rc_struct (
    rj_ref <|
    rj_plain (by decide) (rf_nil (refs_string _)) <|
    rj_plain (by decide) (rf_nil (refs_string _)) <|
    rj_plain (by decide) (rf_nil (refs_string _)) <|
    rj_plain (by decide) (rf_list_nil (fun a _ => refs_resourceReferenceChoice a)) <|
    rj_plain (by decide) (rf_nil (refs_string _)) <|
    rj_plain (by decide) (rf_opt_nil (fun a _ => refs_event a)) <|
    rj_plain (by decide) (rf_list_nil (fun a _ => refs_taskTriggerCondition a)) <|
    rj_plain (by decide) (rf_nil (refs_string _)) <|
    rj_plain (by decide) (rf_list_nil (fun a _ => refs_taskInput a)) <|
    rj_plain (by decide) (rf_list_nil (fun a _ => refs_taskOutput a)) <|
    rj_plain (by decide) (rf_list_nil (fun a _ => refs_property a)) <|
    rj_nil)).eq ?_
  simp only [TaskTrigger.bomRefs, TaskTrigger.toP, List.append_nil, List.nil_append, List.append_assoc]

theorem refs_volume (x : Volume) : RefC J.volume x [] := by
  refine (rc_struct (
    rj_plain (by decide) (rf_nil (refs_string _)) <|
    rj_plain (by decide) (rf_nil (refs_string _)) <|
    rj_plain (by decide) (rf_nil (refs_string _)) <|
    rj_plain (by decide) (rf_nil (refs_string _)) <|
    rj_plain (by decide) (rf_nil (refs_string _)) <|
    rj_plain (by decide) (rf_opt_nil (fun a _ => refs_bool a)) <|
    rj_plain (by decide) (rf_opt_nil (fun a _ => refs_bool a)) <|
    rj_plain (by decide) (rf_list_nil (fun a _ => refs_property a)) <|
    rj_nil)).eq ?_
  simp only [List.append_nil, List.nil_append, List.append_assoc]

theorem refs_taskWorkspace (x : TaskWorkspace) : RefC J.taskWorkspace x x.bomRefs := by
  refine (rc_struct (
    rj_ref <|
    rj_plain (by decide) (rf_nil (refs_string _)) <|
    rj_plain (by decide) (rf_nil (refs_string _)) <|
    rj_plain (by decide) (rf_list_nil (fun a _ => refs_string a)) <|
    rj_plain (by decide) (rf_nil (refs_string _)) <|
    rj_plain (by decide) (rf_list_nil (fun a _ => refs_resourceReferenceChoice a)) <|
    rj_plain (by decide) (rf_nil (refs_string _)) <|
    rj_plain (by decide) (rf_nil (refs_string _)) <|
    rj_plain (by decide) (rf_nil (refs_string _)) <|
    rj_plain (by decide) (rf_nil (refs_string _)) <|
    rj_plain (by decide) (rf_opt_nil (fun a _ => refs_volume a)) <|
    rj_plain (by decide) (rf_list_nil (fun a _ => refs_property a)) <|
    rj_nil)).eq ?_
  simp only [TaskWorkspace.bomRefs, TaskWorkspace.toP, List.append_nil, List.nil_append, List.append_assoc]

theorem refs_task (x : Task) : RefC J.task x x.bomRefs := by
  refine (rc_struct (
    rj_ref <|
    rj_plain (by decide) (rf_nil (refs_string _)) <|
    rj_plain (by decide) (rf_nil (refs_string _)) <|
    rj_plain (by decide) (rf_nil (refs_string _)) <|
    rj_plain (by decide) (rf_list_nil (fun a _ => refs_property a)) <|
    rj_plain (by decide) (rf_list_nil (fun a _ => refs_resourceReferenceChoice a)) <|
    rj_plain (by decide) (rf_list_nil (fun a _ => refs_string a)) <|
    rj_field (by decide) (rf_opt (fun a _ => refs_taskTrigger a)) <|
    rj_plain (by decide) (rf_list_nil (fun a _ => refs_taskStep a)) <|
    rj_plain (by decide) (rf_list_nil (fun a _ => refs_taskInput a)) <|
    rj_plain (by decide) (rf_list_nil (fun a _ => refs_taskOutput a)) <|
    rj_plain (by decide) (rf_nil (refs_string _)) <|
    rj_plain (by decide) (rf_nil (refs_string _)) <|
    rj_field (by decide) (rf_list (fun a _ => refs_taskWorkspace a)) <|
    rj_plain (by decide) (rf_list_nil (fun a _ => refs_dependency a)) <|
    rj_nil)).eq ?_
  simp only [Task.bomRefs, Task.toP, List.append_nil, List.nil_append, List.append_assoc]

theorem refs_workflow (x : Workflow) : RefC J.workflow x x.bomRefs := by
  refine (rc_struct (
    rj_ref <|
    rj_plain (by decide) (rf_nil (refs_string _)) <|
    rj_plain (by decide) (rf_nil (refs_string _)) <|
    rj_plain (by decide) (rf_nil (refs_string _)) <|
    rj_plain (by decide) (rf_list_nil (fun a _ => refs_resourceReferenceChoice a)) <|
    rj_field (by decide) (rf_list (fun a _ => refs_task a)) <|
    rj_plain (by decide) (rf_list_nil (fun a _ => refs_dependency a)) <|
    rj_plain (by decide) (rf_list_nil (fun a _ => refs_string a)) <|
    rj_field (by decide) (rf_opt (fun a _ => refs_taskTrigger a)) <|
    rj_plain (by decide) (rf_list_nil (fun a _ => refs_taskStep a)) <|
    rj_plain (by decide) (rf_list_nil (fun a _ => refs_taskInput a)) <|
    rj_plain (by decide) (rf_list_nil (fun a _ => refs_taskOutput a)) <|
    rj_plain (by decide) (rf_nil (refs_string _)) <|
    rj_plain (by decide) (rf_nil (refs_string _)) <|
    rj_field (by decide) (rf_list (fun a _ => refs_taskWorkspace a)) <|
    rj_plain (by decide) (rf_list_nil (fun a _ => refs_dependency a)) <|
    rj_plain (by decide) (rf_list_nil (fun a _ => refs_property a)) <|
    rj_nil)).eq ?_
  simp only [Workflow.bomRefs, Workflow.toP, List.append_nil, List.nil_append, List.append_assoc]

theorem refs_formula (x : Formula) : RefC J.formula x x.bomRefs := by
  refine (rc_struct (
    rj_ref <|
    rj_field (by decide) (rf_list (fun a _ => refs_component a)) <|
    rj_field (by decide) (rf_list (fun a _ => refs_service a)) <|
    rj_field (by decide) (rf_list (fun a _ => refs_workflow a)) <|
    rj_plain (by decide) (rf_list_nil (fun a _ => refs_property a)) <|
    rj_nil)).eq ?_
  simp only [Formula.bomRefs, Formula.toP, List.append_nil, List.nil_append, List.append_assoc]

theorem refs_lifecycle (x : Lifecycle) : RefC J.lifecycle x [] := by
  refine (rc_struct (
    rj_plain (by decide) (rf_nil (refs_string _)) <|
    rj_plain (by decide) (rf_nil (refs_string _)) <|
    rj_plain (by decide) (rf_nil (refs_string _)) <|
    rj_nil)).eq ?_
  simp only [List.append_nil, List.nil_append, List.append_assoc]

theorem refs_tool (x : Tool) : RefC J.tool x [] := by
  refine (rc_struct (
    rj_plain (by decide) (rf_nil (refs_string _)) <|
    rj_plain (by decide) (rf_nil (refs_string _)) <|
    rj_plain (by decide) (rf_nil (refs_string _)) <|
    rj_plain (by decide) (rf_list_nil (fun a _ => refs_hash a)) <|
    rj_plain (by decide) (rf_list_nil (fun a _ => refs_externalReference a)) <|
    rj_nil)).eq ?_
  simp only [List.append_nil, List.nil_append, List.append_assoc]

theorem refs_toolsChoice (x : ToolsChoice) : RefC J.toolsChoice x x.bomRefs := by
  intro j hj
  obtain ⟨t, c, s⟩ := x
  simp only [J.toolsChoice] at hj
  simp only [ToolsChoice.bomRefs]
  split at hj
  · cases hj
  · rename_i h1
    split at hj
    · rename_i ht
      have hcs : c = .nil ∧ s = .nil := by
        cases t <;> cases c <;> cases s <;> simp_all [PSlice.isNil]
      have := rc_list (fun a _ => refs_tool a) j hj
      rw [this]
      simp [hcs.1, hcs.2, PSlice.elems]
    · rename_i ht
      have ht : t = .nil := by cases t <;> simp_all [PSlice.isNil]
      split at hj
      · have h : RefC J.toolsChoiceJSON (c, s)
            (c.elems.flatMap Component.bomRefs ++ (s.elems.flatMap Service.bomRefs ++ [])) :=
          rc_struct (rj_field (by decide) (rf_list (fun a _ => refs_component a)) <|
            rj_field (by decide) (rf_list (fun a _ => refs_service a)) rj_nil)
        rw [h _ hj]
        simp [ht, PSlice.elems]
      · cases hj

theorem refs_distributionConstraints (x : DistributionConstraints) : RefC J.distributionConstraints x [] := by
  refine (rc_struct (
    rj_plain (by decide) (rf_nil (refs_string _)) <|
    rj_nil)).eq ?_
  simp only [List.append_nil, List.nil_append, List.append_assoc]

theorem refs_metadata (x : Metadata) : RefC J.metadata x x.bomRefs := by
  refine (rc_struct (
    rj_plain (by decide) (rf_nil (refs_string _)) <|
    rj_plain (by decide) (rf_list_nil (fun a _ => refs_lifecycle a)) <|
    rj_field (by decide) (rf_opt (fun a _ => refs_toolsChoice a)) <|
    rj_field (by decide) (rf_list (fun a _ => refs_organizationalContact a)) <|
    rj_field (by decide) (rf_opt (fun a _ => refs_component a)) <|
    rj_field (by decide) (rf_opt (fun a _ => refs_organizationalEntity a)) <|
    rj_field (by decide) (rf_opt (fun a _ => refs_organizationalEntity a)) <|
    rj_field (by decide) (rf_opt (fun a _ => refs_organizationalEntity a)) <|
    rj_field (by decide) (rf_list (fun a _ => refs_licenseChoice a)) <|
    rj_plain (by decide) (rf_list_nil (fun a _ => refs_property a)) <|
    rj_plain (by decide) (rf_opt_nil (fun a _ => refs_distributionConstraints a)) <|
    rj_nil)).eq ?_
  simp only [Metadata.bomRefs, Metadata.toP, List.append_nil, List.nil_append, List.append_assoc]

theorem refs_credits (x : Credits) : RefC J.credits x x.bomRefs := by
  refine (rc_struct (
    rj_field (by decide) (rf_list (fun a _ => refs_organizationalEntity a)) <|
    rj_field (by decide) (rf_list (fun a _ => refs_organizationalContact a)) <|
    rj_nil)).eq ?_
  simp only [Credits.bomRefs, Credits.toP, List.append_nil, List.nil_append, List.append_assoc]

theorem refs_proofOfConcept (x : ProofOfConcept) : RefC J.proofOfConcept x [] := by
  refine (rc_struct (
    rj_plain (by decide) (rf_nil (refs_string _)) <|
    rj_plain (by decide) (rf_nil (refs_string _)) <|
    rj_plain (by decide) (rf_list_nil (fun a _ => refs_attachedText a)) <|
    rj_nil)).eq ?_
  simp only [List.append_nil, List.nil_append, List.append_assoc]

theorem refs_vulnerabilityAnalysis (x : VulnerabilityAnalysis) : RefC J.vulnerabilityAnalysis x [] := by
  refine (rc_struct (
    rj_plain (by decide) (rf_nil (refs_string _)) <|
    rj_plain (by decide) (rf_nil (refs_string _)) <|
    rj_plain (by decide) (rf_list_nil (fun a _ => refs_string a)) <|
    rj_plain (by decide) (rf_nil (refs_string _)) <|
    rj_plain (by decide) (rf_nil (refs_string _)) <|
    rj_plain (by decide) (rf_nil (refs_string _)) <|
    rj_nil)).eq ?_
  simp only [List.append_nil, List.nil_append, List.append_assoc]

theorem refs_vulnerabilityRating (x : VulnerabilityRating) : RefC J.vulnerabilityRating x [] := by
  refine (rc_struct (
    rj_plain (by decide) (rf_opt_nil (fun a _ => refs_source a)) <|
    rj_plain (by decide) (rf_opt_nil (fun a _ => refs_f64 a)) <|
    rj_plain (by decide) (rf_nil (refs_string _)) <|
    rj_plain (by decide) (rf_nil (refs_string _)) <|
    rj_plain (by decide) (rf_nil (refs_string _)) <|
    rj_plain (by decide) (rf_nil (refs_string _)) <|
    rj_nil)).eq ?_
  simp only [List.append_nil, List.nil_append, List.append_assoc]

theorem refs_vulnerabilityReference (x : VulnerabilityReference) : RefC J.vulnerabilityReference x [] := by
  refine (rc_struct (
    rj_plain (by decide) (rf_nil (refs_string _)) <|
    rj_plain (by decide) (rf_opt_nil (fun a _ => refs_source a)) <|
    rj_nil)).eq ?_
  simp only [List.append_nil, List.nil_append, List.append_assoc]

theorem refs_vulnerability (x : Vulnerability) : RefC J.vulnerability x x.bomRefs := by
  refine (rc_struct (
    rj_ref <|
    rj_plain (by decide) (rf_nil (refs_string _)) <|
    rj_plain (by decide) (rf_opt_nil (fun a _ => refs_source a)) <|
    rj_plain (by decide) (rf_list_nil (fun a _ => refs_vulnerabilityReference a)) <|
    rj_plain (by decide) (rf_list_nil (fun a _ => refs_vulnerabilityRating a)) <|
    rj_plain (by decide) (rf_list_nil (fun a _ => refs_int a)) <|
    rj_plain (by decide) (rf_nil (refs_string _)) <|
    rj_plain (by decide) (rf_nil (refs_string _)) <|
    rj_plain (by decide) (rf_nil (refs_string _)) <|
    rj_plain (by decide) (rf_nil (refs_string _)) <|
    rj_plain (by decide) (rf_opt_nil (fun a _ => refs_proofOfConcept a)) <|
    rj_plain (by decide) (rf_list_nil (fun a _ => refs_advisory a)) <|
    rj_plain (by decide) (rf_nil (refs_string _)) <|
    rj_plain (by decide) (rf_nil (refs_string _)) <|
    rj_plain (by decide) (rf_nil (refs_string _)) <|
    rj_plain (by decide) (rf_nil (refs_string _)) <|
    rj_field (by decide) (rf_opt (fun a _ => refs_credits a)) <|
    rj_field (by decide) (rf_opt (fun a _ => refs_toolsChoice a)) <|
    rj_plain (by decide) (rf_opt_nil (fun a _ => refs_vulnerabilityAnalysis a)) <|
    rj_plain (by decide) (rf_list_nil (fun a _ => refs_affects a)) <|
    rj_plain (by decide) (rf_list_nil (fun a _ => refs_property a)) <|
    rj_nil)).eq ?_
  simp only [Vulnerability.bomRefs, Vulnerability.toP, List.append_nil, List.nil_append, List.append_assoc]

theorem refs_citation (x : Citation) : RefC J.citation x x.bomRefs := by
  refine (rc_struct (
    rj_ref <|
    rj_plain (by decide) (rf_list_nil (fun a _ => refs_string a)) <|
    rj_plain (by decide) (rf_list_nil (fun a _ => refs_string a)) <|
    rj_plain (by decide) (rf_nil (refs_string _)) <|
    rj_plain (by decide) (rf_opt_nil (fun a _ => refs_bomReference a)) <|
    rj_plain (by decide) (rf_nil (refs_string _)) <|
    rj_plain (by decide) (rf_nil (refs_string _)) <|
    rj_plain (by decide) (rf_opt_nil (fun a _ => refs_jsfSignature a)) <|
    rj_nil)).eq ?_
  simp only [Citation.bomRefs, Citation.toP, List.append_nil, List.nil_append, List.append_assoc]

theorem refs_bom (x : BOM) : RefC J.bom x x.bomRefs := by
  refine (rc_struct (
    rj_skip <|
    rj_skip <|
    rj_plain (by decide) (rf_nil (refs_string _)) <|
    rj_plain (by decide) (rf_nil (refs_string _)) <|
    rj_plain (by decide) (rf_nil (refs_specVersion _)) <|
    rj_plain (by decide) (rf_nil (refs_string _)) <|
    rj_plain (by decide) (rf_nil (refs_int _)) <|
    rj_field (by decide) (rf_opt (fun a _ => refs_metadata a)) <|
    rj_field (by decide) (rf_list (fun a _ => refs_component a)) <|
    rj_field (by decide) (rf_list (fun a _ => refs_service a)) <|
    rj_plain (by decide) (rf_list_nil (fun a _ => refs_externalReference a)) <|
    rj_plain (by decide) (rf_list_nil (fun a _ => refs_dependency a)) <|
    rj_field (by decide) (rf_list (fun a _ => refs_composition a)) <|
    rj_plain (by decide) (rf_list_nil (fun a _ => refs_property a)) <|
    rj_field (by decide) (rf_list (fun a _ => refs_vulnerability a)) <|
    rj_field (by decide) (rf_list (fun a _ => refs_annotation a)) <|
    rj_field (by decide) (rf_list (fun a _ => refs_formula a)) <|
    rj_field (by decide) (rf_opt (fun a _ => refs_declarations a)) <|
    rj_field (by decide) (rf_opt (fun a _ => refs_definitions a)) <|
    rj_field (by decide) (rf_list (fun a _ => refs_citation a)) <|
    rj_plain (by decide) (rf_opt_nil (fun a _ => refs_jsfSignature a)) <|
    rj_nil)).eq ?_
  simp only [BOM.bomRefs, BOM.toP, List.append_nil, List.nil_append, List.append_assoc]

end Verif
