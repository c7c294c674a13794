import Verif.Xml.SchemaFields
import Verif.Xml.StructLaws
import Verif.Spec.XmlFits

/-!
# Which values are written as the XML schema of a version declares

GENERATED by `tools/gen_xfits.py`; do not edit by hand.

For every type `T`: the element written for `x` is valid at the places of the schema at which the library writes it
exactly if `T.XFits v x`.
-/

namespace Verif

open Xml (sanitize trim textOf textKids)

variable [XFloatIO]

set_option linter.unusedSectionVars false
set_option linter.unusedSimpArgs false
set_option linter.unusedVariables false

theorem xfit_f32 (v : Int) (n : String) (x : F32) : CFit v .text X.f32 n x True True := cf_simple
theorem xfit_f64 (v : Int) (n : String) (x : F64) : CFit v .text X.f64 n x True True := cf_simple

/-- cyclonedx_xml.go:566-596: a reference is text, which is declared in every version. -/
theorem xfit_ike {v : Int} {p : XPlace} {σ β : Type} {F : XFields β} {toP : σ → BOMReference × β}
    {ofP : BOMReference × β → σ} {isRef : β → Bool} {n : String} {s : σ} {A R K : Prop}
    (side : (p.mixed && p.content.null && p.attrs.all fun d => !d.required) = true)
    (ha : AFit v p.attrs F (toP s).2 A) (hr : RFit v p.attrs F (toP s).2 R) (ht : p.mixed = true ∨ F.texts = 0)
    (hk : KFit v p.content (F.blks (toP s).2) K) :
    CFit v p (X.ikev2 F toP ofP isRef) n s True ((toP s).1.val ≠ "" ∨ A ∧ R ∧ K) := by
  simp only [Bool.and_eq_true, List.all_eq_true, Bool.not_eq_true'] at side
  intro o ho
  by_cases h : (toP s).1.val = ""
  · have hs := cf_struct (F := .skip (⟨""⟩ : BOMReference) F) (toP := toP) (ofP := ofP) (n := n) (s := s) (af_skip ha)
      (R := R) (show RFit v p.attrs F (toP s).2 R from hr) ht hk
    have := hs o (by simpa [X.ikev2, h] using ho)
    simpa [h] using this
  · simp only [X.ikev2, h, ne_eq, not_false_eq_true, if_true, Option.some.injEq] at ho
    subst ho
    refine ⟨by simp, ?_⟩
    simp only [Option.mem_def, Option.some.injEq, forall_eq', Xml.isElem, decide_true, true_and, h, ne_eq,
      not_false_eq_true, true_or, iff_true]
    rw [xvalid_iff]
    refine ⟨⟨fun a ha => (by cases ha), fun d hd hq => ?_⟩, .inl side.1.1, ?_⟩
    · simp [side.2 d hd] at hq
    · rw [elements_textKids]
      exact Content.null_matches side.1.2

/-- A repeated choice between elements. -/
theorem matches_many_single {v : Int} {ok : XPlace → Xml → Prop} {a : Content}
    (h : ∀ l, a.Matches v ok l → ∃ x, l = [x]) : ∀ {l : List Xml},
    (Content.many a).Matches v ok l ↔ ∀ x ∈ l, a.Matches v ok [x]
  | [] => ⟨fun _ => by simp, fun _ => .manyNil⟩
  | x :: l => by
    rw [Content.matches_many]
    simp only [List.mem_cons, forall_eq_or_imp, reduceCtorEq, false_or]
    rw [← matches_many_single h (l := l)]
    constructor
    · rintro ⟨l₁, l₂, e, h₁, h₂⟩
      obtain ⟨y, rfl⟩ := h l₁ h₁
      simp only [List.singleton_append, List.cons.injEq] at e
      obtain ⟨rfl, rfl⟩ := e
      exact ⟨h₁, h₂⟩
    · exact fun ⟨h₁, h₂⟩ => ⟨[x], l, rfl, h₁, h₂⟩

theorem encEach_cons {α : Type} {f : α → Option (List Xml)} {a : α} {as : List α} {ks : List Xml}
    (h : X.encEach f (a :: as) = some ks) : ∃ k l, f a = some k ∧ X.encEach f as = some l ∧ ks = k ++ l := by
  simp only [X.encEach] at h
  split at h
  · cases h
  · rename_i k hk
    obtain ⟨l, hl, rfl⟩ := Option.map_eq_some_iff.mp h
    exact ⟨k, l, hk, hl, rfl⟩

/-- What holds of all elements that a loop writes. -/
theorem encEach_all {α : Type} {f : α → Option (List Xml)} {Q : Xml → Prop} {P : α → Prop} : ∀ {as : List α}
    {ks : List Xml}, X.encEach f as = some ks → (∀ a ∈ as, ∀ k, f a = some k → ((∀ x ∈ k, Q x) ↔ P a)) →
      ((∀ x ∈ ks, Q x) ↔ ∀ a ∈ as, P a)
  | [], ks, h, _ => by cases h; simp
  | a :: as, ks, h, hp => by
    obtain ⟨k, l, hk, hl, rfl⟩ := encEach_cons h
    simp only [List.mem_append, List.mem_cons, or_imp, forall_and, forall_eq]
    rw [hp a (by simp) k hk, encEach_all hl fun b hb => hp b (by simp [hb])]

/-- How many elements a loop writes that writes at most one for each. -/
theorem encEach_length {α : Type} {f : α → Option (List Xml)} {w : α → Bool} : ∀ {as : List α}
    {ks : List Xml}, X.encEach f as = some ks →
      (∀ a ∈ as, ∀ k, f a = some k → k.length = if w a then 1 else 0) → ks.length = (as.filter w).length
  | [], ks, h, _ => by cases h; rfl
  | a :: as, ks, h, hp => by
    obtain ⟨k, l, hk, hl, rfl⟩ := encEach_cons h
    rw [List.length_append, hp a (by simp) k hk, encEach_length hl fun b hb => hp b (by simp [hb]), List.filter_cons]
    split <;> simp [Nat.add_comm]

theorem matches_opt_el {v : Int} {ok : XPlace → Xml → Prop} {n : String} {p : XPlace} {l : List Xml} :
    (Content.opt (.el n p)).Matches v ok l ↔ l.length ≤ 1 ∧ ∀ x ∈ l, x.isElem n = true ∧ ok p x := by
  rw [Content.matches_opt, Content.matches_el]
  match l with
  | [] => simp
  | [x] => simp
  | x :: y :: l => simp

theorem matches_some_el {v : Int} {ok : XPlace → Xml → Prop} {n : String} {p : XPlace} {l : List Xml} :
    (Content.some (.el n p)).Matches v ok l ↔ l ≠ [] ∧ ∀ x ∈ l, x.isElem n = true ∧ ok p x := by
  rw [Content.matches_some]
  simp only [Content.matches_el, Content.matches_many_el]
  constructor
  · rintro ⟨_, l₂, rfl, ⟨x, rfl, hx⟩, h⟩
    simp only [List.singleton_append, ne_eq, reduceCtorEq, not_false_eq_true, List.mem_cons, forall_eq_or_imp, true_and]
    exact ⟨hx, h⟩
  · rintro ⟨h, h'⟩
    cases l with
    | nil => exact absurd rfl h
    | cons x l => exact ⟨[x], l, rfl, ⟨x, rfl, h' x (by simp)⟩, fun y hy => h' y (by simp [hy])⟩

/-- An element without attributes at a place where none is required. -/
theorem xvalid_bare {v : Int} {p : XPlace} {n : String} {ks : List Xml}
    (side : (p.attrs.all fun d => !d.required) = true) (hk : ∀ x ∈ ks, ∃ m, x.isElem m = true) :
    XValid v p (.elem n [] ks) ↔ p.content.Matches v (XValid v) ks := by
  simp only [List.all_eq_true, Bool.not_eq_true'] at side
  rw [xvalid_iff, elements_of hk]
  refine ⟨fun h => h.2.2, fun h => ⟨⟨by simp, fun d hd hq => by simp [side d hd] at hq⟩, .inr fun s hs => ?_, h⟩⟩
  obtain ⟨m, hm⟩ := hk _ hs
  simp [Xml.isElem] at hm

theorem encEach_elems {α : Type} {f : α → Option (List Xml)} : ∀ {as : List α} {ks : List Xml},
    X.encEach f as = some ks → (∀ a ∈ as, ∀ k, f a = some k → ∀ x ∈ k, ∃ m, x.isElem m = true) →
      ∀ x ∈ ks, ∃ m, x.isElem m = true
  | [], ks, h, _ => by cases h; simp
  | a :: as, ks, h, hp => by
    obtain ⟨k, l, hk, hl, rfl⟩ := encEach_cons h
    intro x hx
    rcases List.mem_append.mp hx with hx | hx
    · exact hp a (by simp) k hk x hx
    · exact encEach_elems hl (fun b hb => hp b (by simp [hb])) x hx


theorem xfit_advisory (v : Int) (n : String) (x : Advisory) : CFit v .advisory X.advisory n x True True := by
  refine (cf_struct (af_elem <| af_elem <| af_nil) (rf_none rfl) (.inr rfl)
    (kf_plain (so_opt (xfit_string v _ _)) rfl <|
    kf_plain (bf_plain_el (xfit_string v _ _)) rfl <|
    kf_nil)).congr ?_
  simp only [Advisory.toP, and_true, true_and, and_assoc, implies_true, ne_eq, or_false, false_or]

theorem xfit_affectedVersions (v : Int) (n : String) (x : AffectedVersions) : CFit v .targetVersionsVersion X.affectedVersions n x True (x.XFits v) := by
  refine (cf_struct (af_elem <| af_elem <| af_elem <| af_nil) (rf_none rfl) (.inr rfl)
    (kf_opt_must (kf_none (so_empty (xemp_string _) (xfit_string v _ _)) rfl <|
    kf_none (so_empty (xemp_string _) (xfit_string v _ _)) rfl <|
    kf_none (bf_plain_empty (xfit_string v _ _)) rfl <|
    kf_nil) (by simp) (kf_group (fs := [_, _]) (kf_choice (kf_single (kf_elem (so_el (xemp_string _) (xfit_string v _ _)) rfl <|
    kf_none (so_empty (xemp_string _) (xfit_string v _ _)) rfl <|
    kf_nil)) (kf_single (kf_none (so_empty (xemp_string _) (xfit_string v _ _)) rfl <|
    kf_elem (so_el (xemp_string _) (xfit_string v _ _)) rfl <|
    kf_nil))) rfl rfl <|
    kf_plain (bf_plain_opt (xfit_string v _ _)) rfl <|
    kf_nil))).congr ?_
  simp only [AffectedVersions.XFits, AffectedVersions.toP, and_true, true_and, and_assoc, implies_true, ne_eq, or_false, false_or]

theorem xfit_affects (v : Int) (n : String) (x : Affects) : CFit v .target X.affects n x True (x.XFits v) := by
  refine (cf_struct (af_elem <| af_elem <| af_nil) (rf_none rfl) (.inr rfl)
    (kf_opt_must (kf_none (bf_plain_empty (xfit_string v _ _)) rfl <|
    kf_none (bf_nlist_empty) rfl <|
    kf_nil) (by simp) (kf_plain (bf_plain_el (xfit_string v _ _)) rfl <|
    kf_elem (np_opt (r := .targetVersions) rfl (fun h => by simp [h, PSlice.elems]) (lp_many (fun _ => rfl) (fun a _ => xfit_affectedVersions v _ a))) rfl <|
    kf_nil))).congr ?_
  simp only [Affects.XFits, Affects.toP, and_true, true_and, and_assoc, implies_true, ne_eq, or_false, false_or]

theorem xfit_attachedText (v : Int) (n : String) (x : AttachedText) : CFit v .attachedText X.attachedText n x True True := by
  refine (cf_struct (af_chardata <| aa_ok rfl <| aa_ok rfl <| af_nil) (rf_none rfl) (.inl rfl)
    (kf_nil)).congr ?_
  simp only [AttachedText.toP, and_true, true_and, and_assoc, implies_true, ne_eq, or_false, false_or]

theorem xfit_property (v : Int) (n : String) (x : Property) : CFit v .property X.property n x True True := by
  refine (cf_struct (aa_ok rfl <| af_chardata <| af_nil) (rf_one rfl (wr_here)) (.inl rfl)
    (kf_nil)).congr ?_
  simp only [Property.toP, and_true, true_and, and_assoc, implies_true, ne_eq, or_false, false_or]

theorem xfit_property_properties (v : Int) (n : String) (x : Property) : CFit v .properties X.property n x True False :=
  cf_false (aa_never rfl <| af_chardata <| af_nil)

theorem xfit_componentDataContents (v : Int) (n : String) (x : ComponentDataContents) : CFit v .contents X.componentDataContents n x True (x.XFits v) := by
  refine (cf_struct (af_elem <| af_elem <| af_elem <| af_nil) (rf_none rfl) (.inr rfl)
    (kf_plain (pt_opt (fun a _ => xfit_attachedText v _ a)) rfl <|
    kf_plain (so_opt (xfit_string v _ _)) rfl <|
    kf_elem (lpf_opt (fun _ => rfl) (fun a _ => xfit_property_properties v _ a)) rfl <|
    kf_nil)).congr ?_
  simp only [ComponentDataContents.XFits, ComponentDataContents.toP, and_true, true_and, and_assoc, implies_true, ne_eq, or_false, false_or]

theorem xfit_componentDataGraphic (v : Int) (n : String) (x : ComponentDataGraphic) : CFit v .graphic X.componentDataGraphic n x True True := by
  refine (cf_struct (af_elem <| af_elem <| af_nil) (rf_none rfl) (.inr rfl)
    (kf_plain (so_opt (xfit_string v _ _)) rfl <|
    kf_plain (pt_opt (fun a _ => xfit_attachedText v _ a)) rfl <|
    kf_nil)).congr ?_
  simp only [ComponentDataGraphic.toP, and_true, true_and, and_assoc, implies_true, ne_eq, or_false, false_or]

theorem xfit_componentDataGraphics (v : Int) (n : String) (x : ComponentDataGraphics) : CFit v .graphicsCollection X.componentDataGraphics n x True True := by
  refine (cf_struct (af_elem <| af_elem <| af_nil) (rf_none rfl) (.inr rfl)
    (kf_plain (so_opt (xfit_string v _ _)) rfl <|
    kf_plain (nt_opt (r := .collection) rfl (lt_many (fun a _ => xfit_componentDataGraphic v _ a))) rfl <|
    kf_nil)).congr ?_
  simp only [ComponentDataGraphics.toP, and_true, true_and, and_assoc, implies_true, ne_eq, or_false, false_or]

theorem xfit_organizationalContact (v : Int) (n : String) (x : OrganizationalContact) : CFit v .organizationalContact X.organizationalContact n x True (x.XFits v) := by
  refine (cf_struct (aa_since_oe rfl (emt_string _) <| af_elem <| af_elem <| af_elem <| af_nil) (rf_none rfl) (.inr rfl)
    (kf_opt rfl (kf_plain (so_opt (xfit_string v _ _)) rfl <|
    kf_plain (bf_switch_same (so_many (xfit_string v _ _)) (so_opt (xfit_string v _ _))) rfl <|
    kf_plain (bf_switch_same (so_many (xfit_string v _ _)) (so_opt (xfit_string v _ _))) rfl <|
    kf_nil))).congr ?_
  simp only [OrganizationalContact.XFits, OrganizationalContact.toP, and_true, true_and, and_assoc, implies_true, ne_eq, or_false, false_or]

theorem xfit_postalAddress (v : Int) (n : String) (x : PostalAddress) : CFit v .postalAddress X.postalAddress n x True True := by
  refine (cf_struct (aa_ok rfl <| af_elem <| af_elem <| af_elem <| af_elem <| af_elem <| af_elem <| af_nil) (rf_none rfl) (.inr rfl)
    (kf_plain (so_opt (xfit_string v _ _)) rfl <|
    kf_plain (so_opt (xfit_string v _ _)) rfl <|
    kf_plain (so_opt (xfit_string v _ _)) rfl <|
    kf_plain (so_opt (xfit_string v _ _)) rfl <|
    kf_plain (so_opt (xfit_string v _ _)) rfl <|
    kf_plain (so_opt (xfit_string v _ _)) rfl <|
    kf_nil)).congr ?_
  simp only [PostalAddress.toP, and_true, true_and, and_assoc, implies_true, ne_eq, or_false, false_or]

theorem xfit_organizationalEntity (v : Int) (n : String) (x : OrganizationalEntity) : CFit v .organizationalEntity X.organizationalEntity n x True (x.XFits v) := by
  refine (cf_struct (aa_since_oe rfl (emt_string _) <| af_elem <| af_elem <| af_elem <| af_elem <| af_nil) (rf_none rfl) (.inr rfl)
    (kf_opt rfl (kf_plain (bf_plain_opt (xfit_string v _ _)) rfl <|
    kf_elem (bf_since_t (pt_empty (fun a _ => xfit_postalAddress v _ a)) (pt_opt (fun a _ => xfit_postalAddress v _ a)) rfl) rfl <|
    kf_plain (lt_many (fun a _ => xfit_string v _ a)) rfl <|
    kf_elem (lp_many (fun _ => rfl) (fun a _ => xfit_organizationalContact v _ a)) rfl <|
    kf_nil))).congr ?_
  simp only [OrganizationalEntity.XFits, OrganizationalEntity.toP, and_true, true_and, and_assoc, implies_true, ne_eq, or_false, false_or]

theorem xfit_componentDataGovernanceResponsibleParty (v : Int) (n : String) (x : ComponentDataGovernanceResponsibleParty) : CFit v .licensee X.componentDataGovernanceResponsibleParty n x True (x.XFits v) := by
  refine (cf_struct (af_elem <| af_elem <| af_nil) (rf_none rfl) (.inr rfl)
    (kf_choice (kf_single (kf_elem (pp_opt (fun a _ => xfit_organizationalEntity v _ a)) rfl <|
    kf_none (pt_empty (fun a _ => xfit_organizationalContact v _ a)) rfl <|
    kf_nil)) (kf_single (kf_none (pt_empty (fun a _ => xfit_organizationalEntity v _ a)) rfl <|
    kf_none (pt_empty (fun a _ => xfit_organizationalContact v _ a)) rfl <|
    kf_gap rfl <|
    kf_nil)))).congr ?_
  simp only [ComponentDataGovernanceResponsibleParty.XFits, ComponentDataGovernanceResponsibleParty.toP, and_true, true_and, and_assoc, implies_true, ne_eq, or_false, false_or]

theorem xfit_dataGovernance (v : Int) (n : String) (x : DataGovernance) : CFit v .dataGovernance X.dataGovernance n x True (x.XFits v) := by
  refine (cf_struct (af_elem <| af_elem <| af_elem <| af_nil) (rf_none rfl) (.inr rfl)
    (kf_elem (np_opt (r := .dataGovernanceCustodians) rfl (fun h => by simp [h, PSlice.elems]) (lp_many (fun _ => rfl) (fun a _ => xfit_componentDataGovernanceResponsibleParty v _ a))) rfl <|
    kf_elem (np_opt (r := .dataGovernanceStewards) rfl (fun h => by simp [h, PSlice.elems]) (lp_many (fun _ => rfl) (fun a _ => xfit_componentDataGovernanceResponsibleParty v _ a))) rfl <|
    kf_elem (np_opt (r := .dataGovernanceOwners) rfl (fun h => by simp [h, PSlice.elems]) (lp_many (fun _ => rfl) (fun a _ => xfit_componentDataGovernanceResponsibleParty v _ a))) rfl <|
    kf_nil)).congr ?_
  simp only [DataGovernance.XFits, DataGovernance.toP, and_true, true_and, and_assoc, implies_true, ne_eq, or_false, false_or]

theorem xfit_componentData (v : Int) (n : String) (x : ComponentData) : CFit v .componentData X.componentData n x True (x.XFits v) := by
  refine (cf_struct (aa_ok rfl <| af_elem <| af_elem <| af_elem <| af_elem <| af_elem <| af_elem <| af_elem <| af_elem <| af_nil) (rf_none rfl) (.inr rfl)
    (kf_elem (so_el (xemp_string _) (xfit_string v _ _)) rfl <|
    kf_plain (so_opt (xfit_string v _ _)) rfl <|
    kf_elem (pp_opt (fun a _ => xfit_componentDataContents v _ a)) rfl <|
    kf_plain (so_opt (xfit_string v _ _)) rfl <|
    kf_plain (lt_many (fun a _ => xfit_string v _ a)) rfl <|
    kf_plain (pt_opt (fun a _ => xfit_componentDataGraphics v _ a)) rfl <|
    kf_plain (so_opt (xfit_string v _ _)) rfl <|
    kf_elem (pp_opt (fun a _ => xfit_dataGovernance v _ a)) rfl <|
    kf_nil)).congr ?_
  simp only [ComponentData.XFits, ComponentData.toP, and_true, true_and, and_assoc, implies_true, ne_eq, or_false, false_or]

theorem xfit_hash (v : Int) (n : String) (x : Hash) : CFit v .hash X.hash n x True True := by
  refine (cf_struct (aa_ok rfl <| af_chardata <| af_nil) (rf_one rfl (wr_here)) (.inl rfl)
    (kf_nil)).congr ?_
  simp only [Hash.toP, and_true, true_and, and_assoc, implies_true, ne_eq, or_false, false_or]

theorem xfit_relatedCryptographicAsset (v : Int) (n : String) (x : RelatedCryptographicAsset) : CFit v .relatedCryptographicAsset X.relatedCryptographicAsset n x True True := by
  refine (cf_struct (af_elem <| af_elem <| af_nil) (rf_none rfl) (.inr rfl)
    (kf_plain (so_opt (xfit_string v _ _)) rfl <|
    kf_plain (so_opt (xfit_string v _ _)) rfl <|
    kf_nil)).congr ?_
  simp only [RelatedCryptographicAsset.toP, and_true, true_and, and_assoc, implies_true, ne_eq, or_false, false_or]

theorem xfit_certificateState (v : Int) (n : String) (x : CertificateState) :
    CFit v .certificateState X.certificateState n x x.XWritten True := by
  intro o ho
  simp only [X.certificateState] at ho
  split at ho
  · cases ho
  · rename_i p hp hc
    have h := (cf_struct (v := v) (p := .certificateState) (n := n) (s := p) (toP := PredefinedCertificateState.toP)
      (ofP := PredefinedCertificateState.ofP) (af_elem <| af_elem <| af_nil) (rf_none rfl) (.inr rfl)
      (kf_choice
        (kf_plain (bf_plain_el (xfit_string v _ _)) rfl <| kf_plain (so_opt (xfit_string v _ _)) rfl <| kf_nil)
        (kf_none (bf_plain_empty (xfit_string v _ _)) rfl <| kf_missing "name" rfl
          (kf_none (so_empty (xemp_string _) (xfit_string v _ _)) rfl <| kf_nil)))) o ho
    simpa [CertificateState.XWritten, hp, hc] using h
  · rename_i c hp hc
    have h := (cf_struct (v := v) (p := .certificateState) (n := n) (s := c) (toP := CustomCertificateState.toP)
      (ofP := CustomCertificateState.ofP) (af_elem <| af_elem <| af_elem <| af_nil) (rf_none rfl) (.inr rfl)
      (kf_choice
        (kf_none (bf_plain_empty (xfit_string v _ _)) rfl <|
          kf_none (so_empty (xemp_string _) (xfit_string v _ _)) rfl <| kf_missing "state" rfl
            (kf_none (so_empty (xemp_string _) (xfit_string v _ _)) rfl <| kf_nil))
        (kf_plain (bf_plain_el (xfit_string v _ _)) rfl <| kf_plain (so_opt (xfit_string v _ _)) rfl <|
          kf_plain (so_opt (xfit_string v _ _)) rfl <| kf_nil))) o ho
    simpa [CertificateState.XWritten, hp, hc] using h
  · rename_i hp hc
    cases ho
    simp [CertificateState.XWritten, hp, hc]


theorem xfit_certificateExtension (v : Int) (n : String) (x : CertificateExtension) :
    CFit v .certificateExtension X.certificateExtension n x x.XWritten (x.XFits v) := by
  intro o ho
  simp only [X.certificateExtension] at ho
  split at ho
  · cases ho
  · rename_i p hp hc
    have h := (cf_struct (v := v) (p := .certificateExtension) (n := n) (s := p) (toP := CommonCertificateExtension.toP)
      (ofP := CommonCertificateExtension.ofP) (af_elem <| af_elem <| af_nil) (rf_none rfl) (.inr rfl)
      (kf_choice
        (kf_plain (bf_plain_el (xfit_string v _ _)) rfl <| kf_elem (so_el (xemp_string _) (xfit_string v _ _)) rfl <| kf_nil)
        (kf_none (bf_plain_empty (xfit_string v _ _)) rfl <| kf_none (so_empty (xemp_string _) (xfit_string v _ _)) rfl <|
          kf_missing "customExtensionName" rfl kf_nil))) o ho
    simpa [CertificateExtension.XWritten, CertificateExtension.XFits, hp, hc, CommonCertificateExtension.toP] using h
  · rename_i c hp hc
    have h := (cf_struct (v := v) (p := .certificateExtension) (n := n) (s := c) (toP := CustomCertificateExtension.toP)
      (ofP := CustomCertificateExtension.ofP) (af_elem <| af_elem <| af_nil) (rf_none rfl) (.inr rfl)
      (kf_choice
        (kf_none (bf_plain_empty (xfit_string v _ _)) rfl <| kf_none (so_empty (xemp_string _) (xfit_string v _ _)) rfl <|
          kf_missing "commonExtensionName" rfl kf_nil)
        (kf_plain (bf_plain_el (xfit_string v _ _)) rfl <| kf_plain (so_opt (xfit_string v _ _)) rfl <| kf_nil))) o ho
    simpa [CertificateExtension.XWritten, CertificateExtension.XFits, hp, hc] using h
  · rename_i hp hc
    cases ho
    simp [CertificateExtension.XWritten, hp, hc]

theorem certificateExtension_unwritten (v : Int) (x : CertificateExtension) (h : ¬ x.XWritten) : x.XFits v := by
  simp only [CertificateExtension.XWritten, not_or, ne_eq, not_not] at h
  simp [CertificateExtension.XFits, h.1]


theorem xfit_certificateProperties (v : Int) (n : String) (x : CertificateProperties) : CFit v .certificateProperties X.certificateProperties n x True (x.XFits v) := by
  refine (cf_struct (af_elem <| af_elem <| af_elem <| af_elem <| af_elem <| af_elem <| af_elem <| af_elem <| af_elem <| af_elem <| af_elem <| af_elem <| af_elem <| af_elem <| af_elem <| af_elem <| af_elem <| af_elem <| af_elem <| af_nil) (rf_none rfl) (.inr rfl)
    (kf_elem (bf_since_t (so_empty (xemp_string _) (xfit_string v _ _)) (so_opt (xfit_string v _ _)) rfl) rfl <|
    kf_plain (so_opt (xfit_string v _ _)) rfl <|
    kf_plain (so_opt (xfit_string v _ _)) rfl <|
    kf_plain (so_opt (xfit_string v _ _)) rfl <|
    kf_plain (so_opt (xfit_string v _ _)) rfl <|
    kf_elem (fo_opt (xemp_bomReference _) (xfit_bomReference_text v _ _)) rfl <|
    kf_elem (fo_opt (xemp_bomReference _) (xfit_bomReference_text v _ _)) rfl <|
    kf_plain (so_opt (xfit_string v _ _)) rfl <|
    kf_plain (so_opt (xfit_string v _ _)) rfl <|
    kf_elem (bf_since_t (so_empty (xemp_string _) (xfit_string v _ _)) (so_opt (xfit_string v _ _)) rfl) rfl <|
    kf_elem (bf_since_t (pt_empty (fun a _ => xfit_hash v _ a)) (pt_opt (fun a _ => xfit_hash v _ a)) rfl) rfl <|
    kf_elem (bf_since_t (lw_empty (fun _ => rfl) (fun a _ => xfit_certificateState v _ a)) (lwt_many (fun a _ => xfit_certificateState v _ a)) rfl) rfl <|
    kf_pull (A := []) (B := [_, _]) (so_empty (xemp_string _) (xfit_string v _ _)) (kf_none (bf_nlist_empty) rfl <|
    kf_none (bf_nlist_empty) rfl <|
    kf_nil) rfl <|
    kf_elem (bf_since_t (so_empty (xemp_string _) (xfit_string v _ _)) (so_opt (xfit_string v _ _)) rfl) rfl <|
    kf_pull (A := []) (B := [_, _]) (so_empty (xemp_string _) (xfit_string v _ _)) (kf_none (bf_nlist_empty) rfl <|
    kf_none (bf_nlist_empty) rfl <|
    kf_nil) rfl <|
    kf_elem (bf_since_t (so_empty (xemp_string _) (xfit_string v _ _)) (so_opt (xfit_string v _ _)) rfl) rfl <|
    kf_pull (A := []) (B := [_, _]) (so_empty (xemp_string _) (xfit_string v _ _)) (kf_none (bf_nlist_empty) rfl <|
    kf_none (bf_nlist_empty) rfl <|
    kf_nil) rfl <|
    kf_elem (bf_since_t (so_empty (xemp_string _) (xfit_string v _ _)) (so_opt (xfit_string v _ _)) rfl) rfl <|
    kf_pull (A := []) (B := [_, _]) (so_empty (xemp_string _) (xfit_string v _ _)) (kf_none (bf_nlist_empty) rfl <|
    kf_none (bf_nlist_empty) rfl <|
    kf_nil) rfl <|
    kf_elem (bf_since_t (so_empty (xemp_string _) (xfit_string v _ _)) (so_opt (xfit_string v _ _)) rfl) rfl <|
    kf_pull (A := []) (B := [_, _]) (so_empty (xemp_string _) (xfit_string v _ _)) (kf_none (bf_nlist_empty) rfl <|
    kf_none (bf_nlist_empty) rfl <|
    kf_nil) rfl <|
    kf_elem (bf_since_t (so_empty (xemp_string _) (xfit_string v _ _)) (so_opt (xfit_string v _ _)) rfl) rfl <|
    kf_elem (bf_since (bf_nlist_empty) (np_opt (r := .certificateExtensions) rfl (fun h => by simp [h, PSlice.elems]) (lw_many (fun _ => rfl) (certificateExtension_unwritten v) (fun a _ => xfit_certificateExtension v _ a))) rfl) rfl <|
    kf_elem (bf_since_t (bf_nlist_empty) (nt_opt (r := .relatedCryptographicAssets) rfl (lt_many (fun a _ => xfit_relatedCryptographicAsset v _ a))) rfl) rfl <|
    kf_nil)).congr ?_
  simp only [CertificateProperties.XFits, CertificateProperties.toP, and_true, true_and, and_assoc, implies_true, ne_eq, or_false, false_or]

theorem xfit_cryptoAlgorithmProperties (v : Int) (n : String) (x : CryptoAlgorithmProperties) : CFit v .algorithmProperties X.cryptoAlgorithmProperties n x True (x.XFits v) := by
  refine (cf_struct (af_elem <| af_elem <| af_elem <| af_elem <| af_elem <| af_elem <| af_elem <| af_elem <| af_elem <| af_elem <| af_elem <| af_elem <| af_elem <| af_nil) (rf_none rfl) (.inr rfl)
    (kf_plain (so_opt (xfit_string v _ _)) rfl <|
    kf_pull (A := []) (B := [_]) (so_empty (xemp_string _) (xfit_string v _ _)) (kf_none (so_empty (xemp_string _) (xfit_string v _ _)) rfl <|
    kf_nil) rfl <|
    kf_elem (bf_since_t (so_empty (xemp_string _) (xfit_string v _ _)) (so_opt (xfit_string v _ _)) rfl) rfl <|
    kf_plain (so_opt (xfit_string v _ _)) rfl <|
    kf_plain (so_opt (xfit_string v _ _)) rfl <|
    kf_elem (bf_since_t (so_empty (xemp_string _) (xfit_string v _ _)) (so_opt (xfit_string v _ _)) rfl) rfl <|
    kf_plain (so_opt (xfit_string v _ _)) rfl <|
    kf_plain (so_opt (xfit_string v _ _)) rfl <|
    kf_plain (lt_many (fun a _ => xfit_string v _ a)) rfl <|
    kf_plain (so_opt (xfit_string v _ _)) rfl <|
    kf_plain (so_opt (xfit_string v _ _)) rfl <|
    kf_plain (nt_opt (r := .algorithmPropertiesCryptoFunctions) rfl (lt_many (fun a _ => xfit_string v _ a))) rfl <|
    kf_plain (pt_opt (fun a _ => xfit_int v _ a)) rfl <|
    kf_plain (pt_opt (fun a _ => xfit_int v _ a)) rfl <|
    kf_nil)).congr ?_
  simp only [CryptoAlgorithmProperties.XFits, CryptoAlgorithmProperties.toP, and_true, true_and, and_assoc, implies_true, ne_eq, or_false, false_or]

theorem xfit_cipherSuite (v : Int) (n : String) (x : CipherSuite) : CFit v .cipherSuites X.cipherSuite n x True (x.XFits v) := by
  refine (cf_struct (af_elem <| af_elem <| af_elem <| af_elem <| af_elem <| af_nil) (rf_none rfl) (.inr rfl)
    (kf_single (kf_none (so_empty (xemp_string _) (xfit_string v _ _)) rfl <|
    kf_none (ls_empty xemp_bomReference (fun a _ => xfit_bomReference v _ a)) rfl <|
    kf_none (ls_empty xemp_string (fun a _ => xfit_string v _ a)) rfl <|
    kf_none (bf_nlist_empty) rfl <|
    kf_none (bf_nlist_empty) rfl <|
    kf_gap rfl <|
    kf_nil))).congr ?_
  simp only [CipherSuite.XFits, CipherSuite.toP, and_true, true_and, and_assoc, implies_true, ne_eq, or_false, false_or]

theorem xfit_ikev2Auth (v : Int) (n : String) (x : IKEv2Auth) :
    CFit v .prf X.ikev2Auth n x True (x.XFits v) := by
  refine (xfit_ike (F := X.ikev2AuthFields) rfl (af_elem <| af_elem <| af_nil) (rf_none rfl) (.inl rfl)
    (kf_elem (bf_since_t (so_empty (xemp_string _) (xfit_string v _ _)) (so_opt (xfit_string v _ _)) rfl) rfl <|
    kf_elem (bf_since_t (so_empty (xemp_string _) (xfit_string v _ _)) (so_opt (xfit_string v _ _)) rfl) rfl <|
    kf_nil)).congr ?_
  simp only [IKEv2Auth.XFits, IKEv2Auth.toP, and_true, true_and, and_assoc, implies_true, ne_eq, or_false, false_or]

theorem xfit_ikev2Enc (v : Int) (n : String) (x : IKEv2Enc) :
    CFit v .encr X.ikev2Enc n x True (x.XFits v) := by
  refine (xfit_ike (F := X.ikev2EncFields) rfl (af_elem <| af_elem <| af_elem <| af_nil) (rf_none rfl) (.inl rfl)
    (kf_elem (bf_since_t (so_empty (xemp_string _) (xfit_string v _ _)) (so_opt (xfit_string v _ _)) rfl) rfl <|
    kf_elem (bf_since_t (pt_empty (fun a _ => xfit_int v _ a)) (pt_opt (fun a _ => xfit_int v _ a)) rfl) rfl <|
    kf_elem (bf_since_t (so_empty (xemp_string _) (xfit_string v _ _)) (so_opt (xfit_string v _ _)) rfl) rfl <|
    kf_nil)).congr ?_
  simp only [IKEv2Enc.XFits, IKEv2Enc.toP, and_true, true_and, and_assoc, implies_true, ne_eq, or_false, false_or]

theorem xfit_ikev2Integ (v : Int) (n : String) (x : IKEv2Integ) :
    CFit v .prf X.ikev2Integ n x True (x.XFits v) := by
  refine (xfit_ike (F := X.ikev2IntegFields) rfl (af_elem <| af_elem <| af_nil) (rf_none rfl) (.inl rfl)
    (kf_elem (bf_since_t (so_empty (xemp_string _) (xfit_string v _ _)) (so_opt (xfit_string v _ _)) rfl) rfl <|
    kf_elem (bf_since_t (so_empty (xemp_string _) (xfit_string v _ _)) (so_opt (xfit_string v _ _)) rfl) rfl <|
    kf_nil)).congr ?_
  simp only [IKEv2Integ.XFits, IKEv2Integ.toP, and_true, true_and, and_assoc, implies_true, ne_eq, or_false, false_or]

theorem xfit_ikev2Ke (v : Int) (n : String) (x : IKEv2Ke) :
    CFit v .ke X.ikev2Ke n x True (x.XFits v) := by
  refine (xfit_ike (F := X.ikev2KeFields) rfl (af_elem <| af_elem <| af_nil) (rf_none rfl) (.inl rfl)
    (kf_elem (bf_since_t (pt_empty (fun a _ => xfit_int v _ a)) (pt_opt (fun a _ => xfit_int v _ a)) rfl) rfl <|
    kf_elem (bf_since_t (so_empty (xemp_string _) (xfit_string v _ _)) (so_opt (xfit_string v _ _)) rfl) rfl <|
    kf_nil)).congr ?_
  simp only [IKEv2Ke.XFits, IKEv2Ke.toP, and_true, true_and, and_assoc, implies_true, ne_eq, or_false, false_or]

theorem xfit_ikev2Prf (v : Int) (n : String) (x : IKEv2Prf) :
    CFit v .prf X.ikev2Prf n x True (x.XFits v) := by
  refine (xfit_ike (F := X.ikev2PrfFields) rfl (af_elem <| af_elem <| af_nil) (rf_none rfl) (.inl rfl)
    (kf_elem (bf_since_t (so_empty (xemp_string _) (xfit_string v _ _)) (so_opt (xfit_string v _ _)) rfl) rfl <|
    kf_elem (bf_since_t (so_empty (xemp_string _) (xfit_string v _ _)) (so_opt (xfit_string v _ _)) rfl) rfl <|
    kf_nil)).congr ?_
  simp only [IKEv2Prf.XFits, IKEv2Prf.toP, and_true, true_and, and_assoc, implies_true, ne_eq, or_false, false_or]

theorem xfit_ikev2TransformTypes (v : Int) (n : String) (x : IKEv2TransformTypes) : CFit v .ikev2TransformTypes X.ikev2TransformTypes n x True (x.XFits v) := by
  refine (cf_struct (af_elem <| af_elem <| af_elem <| af_elem <| af_elem <| af_elem <| af_nil) (rf_none rfl) (.inr rfl)
    (kf_elem (lp_many (fun _ => rfl) (fun a _ => xfit_ikev2Enc v _ a)) rfl <|
    kf_elem (lp_many (fun _ => rfl) (fun a _ => xfit_ikev2Prf v _ a)) rfl <|
    kf_elem (lp_many (fun _ => rfl) (fun a _ => xfit_ikev2Integ v _ a)) rfl <|
    kf_elem (lp_many (fun _ => rfl) (fun a _ => xfit_ikev2Ke v _ a)) rfl <|
    kf_plain (bf_plain_opt (xfit_bool v _ _)) rfl <|
    kf_elem (lp_many (fun _ => rfl) (fun a _ => xfit_ikev2Auth v _ a)) rfl <|
    kf_nil)).congr ?_
  simp only [IKEv2TransformTypes.XFits, IKEv2TransformTypes.toP, and_true, true_and, and_assoc, implies_true, ne_eq, or_false, false_or]

theorem xfit_cryptoProtocolProperties (v : Int) (n : String) (x : CryptoProtocolProperties) : CFit v .protocolProperties X.cryptoProtocolProperties n x True (x.XFits v) := by
  refine (cf_struct (af_elem <| af_elem <| af_elem <| af_elem <| af_elem <| af_elem <| af_nil) (rf_none rfl) (.inr rfl)
    (kf_plain (so_opt (xfit_string v _ _)) rfl <|
    kf_plain (so_opt (xfit_string v _ _)) rfl <|
    kf_elem (lp_opt (fun _ => rfl) (fun a _ => xfit_cipherSuite v _ a)) rfl <|
    kf_elem (pp_opt (fun a _ => xfit_ikev2TransformTypes v _ a)) rfl <|
    kf_none (ls_empty xemp_bomReference (fun a _ => xfit_bomReference v _ a)) rfl <|
    kf_none (bf_nlist_empty) rfl <|
    kf_gap rfl <|
    kf_nil)).congr ?_
  simp only [CryptoProtocolProperties.XFits, CryptoProtocolProperties.toP, and_true, true_and, and_assoc, implies_true, ne_eq, or_false, false_or]

theorem xfit_securedBy (v : Int) (n : String) (x : SecuredBy) : CFit v .securedBy X.securedBy n x True (x.XFits v) := by
  refine (cf_struct (af_elem <| af_elem <| af_nil) (rf_none rfl) (.inr rfl)
    (kf_plain (so_opt (xfit_string v _ _)) rfl <|
    kf_elem (fo_opt (xemp_bomReference _) (xfit_bomReference_text v _ _)) rfl <|
    kf_nil)).congr ?_
  simp only [SecuredBy.XFits, SecuredBy.toP, and_true, true_and, and_assoc, implies_true, ne_eq, or_false, false_or]

theorem xfit_relatedCryptoMaterialProperties (v : Int) (n : String) (x : RelatedCryptoMaterialProperties) : CFit v .relatedCryptoMaterialProperties X.relatedCryptoMaterialProperties n x True (x.XFits v) := by
  refine (cf_struct (af_elem <| af_elem <| af_elem <| af_elem <| af_elem <| af_elem <| af_elem <| af_elem <| af_elem <| af_elem <| af_elem <| af_elem <| af_elem <| af_elem <| af_nil) (rf_none rfl) (.inr rfl)
    (kf_plain (so_opt (xfit_string v _ _)) rfl <|
    kf_plain (so_opt (xfit_string v _ _)) rfl <|
    kf_plain (so_opt (xfit_string v _ _)) rfl <|
    kf_elem (fo_opt (xemp_bomReference _) (xfit_bomReference_text v _ _)) rfl <|
    kf_plain (so_opt (xfit_string v _ _)) rfl <|
    kf_plain (so_opt (xfit_string v _ _)) rfl <|
    kf_plain (so_opt (xfit_string v _ _)) rfl <|
    kf_plain (so_opt (xfit_string v _ _)) rfl <|
    kf_plain (so_opt (xfit_string v _ _)) rfl <|
    kf_plain (pt_opt (fun a _ => xfit_int v _ a)) rfl <|
    kf_plain (so_opt (xfit_string v _ _)) rfl <|
    kf_elem (pp_opt (fun a _ => xfit_securedBy v _ a)) rfl <|
    kf_elem (bf_since_t (pt_empty (fun a _ => xfit_hash v _ a)) (pt_opt (fun a _ => xfit_hash v _ a)) rfl) rfl <|
    kf_elem (bf_since_t (bf_nlist_empty) (nt_opt (r := .relatedCryptographicAssets) rfl (lt_many (fun a _ => xfit_relatedCryptographicAsset v _ a))) rfl) rfl <|
    kf_nil)).congr ?_
  simp only [RelatedCryptoMaterialProperties.XFits, RelatedCryptoMaterialProperties.toP, and_true, true_and, and_assoc, implies_true, ne_eq, or_false, false_or]

theorem xfit_cryptoProperties (v : Int) (n : String) (x : CryptoProperties) : CFit v .cryptoProperties X.cryptoProperties n x True (x.XFits v) := by
  refine (cf_struct (af_elem <| af_elem <| af_elem <| af_elem <| af_elem <| af_elem <| af_nil) (rf_none rfl) (.inr rfl)
    (kf_plain (bf_plain_el (xfit_string v _ _)) rfl <|
    kf_elem (pp_opt (fun a _ => xfit_cryptoAlgorithmProperties v _ a)) rfl <|
    kf_elem (pp_opt (fun a _ => xfit_certificateProperties v _ a)) rfl <|
    kf_elem (pp_opt (fun a _ => xfit_relatedCryptoMaterialProperties v _ a)) rfl <|
    kf_elem (pp_opt (fun a _ => xfit_cryptoProtocolProperties v _ a)) rfl <|
    kf_plain (so_opt (xfit_string v _ _)) rfl <|
    kf_nil)).congr ?_
  simp only [CryptoProperties.XFits, CryptoProperties.toP, and_true, true_and, and_assoc, implies_true, ne_eq, or_false, false_or]

theorem xfit_callstackFrame (v : Int) (n : String) (x : CallstackFrame) : CFit v .framesFrame X.callstackFrame n x True (x.XFits v) := by
  refine (cf_struct (af_elem <| af_elem <| af_elem <| af_elem <| af_elem <| af_elem <| af_elem <| af_nil) (rf_none rfl) (.inr rfl)
    (kf_plain (so_opt (xfit_string v _ _)) rfl <|
    kf_elem (so_el (xemp_string _) (xfit_string v _ _)) rfl <|
    kf_plain (so_opt (xfit_string v _ _)) rfl <|
    kf_plain (nt_opt (r := .framesFrameParameters) rfl (lt_many (fun a _ => xfit_string v _ a))) rfl <|
    kf_plain (pt_opt (fun a _ => xfit_int v _ a)) rfl <|
    kf_plain (pt_opt (fun a _ => xfit_int v _ a)) rfl <|
    kf_plain (so_opt (xfit_string v _ _)) rfl <|
    kf_nil)).congr ?_
  simp only [CallstackFrame.XFits, CallstackFrame.toP, and_true, true_and, and_assoc, implies_true, ne_eq, or_false, false_or]

theorem xfit_callstack (v : Int) (n : String) (x : Callstack) : CFit v .callstack X.callstack n x True (x.XFits v) := by
  refine (cf_struct (af_elem <| af_nil) (rf_none rfl) (.inr rfl)
    (kf_elem (np_opt (r := .frames) rfl (fun h => by simp [h, PSlice.elems]) (lp_many (fun _ => rfl) (fun a _ => xfit_callstackFrame v _ a))) rfl <|
    kf_gap rfl <|
    kf_nil)).congr ?_
  simp only [Callstack.XFits, Callstack.toP, and_true, true_and, and_assoc, implies_true, ne_eq, or_false, false_or]

theorem xfit_copyright (v : Int) (n : String) (x : Copyright) : CFit v .text X.copyright n x True True :=
  fun o ho => xfit_string v n x.text o ho


theorem xfit_evidenceIdentityMethod (v : Int) (n : String) (x : EvidenceIdentityMethod) : CFit v .methodsMethod X.evidenceIdentityMethod n x True (x.XFits v) := by
  refine (cf_struct (af_elem <| af_elem <| af_elem <| af_nil) (rf_none rfl) (.inr rfl)
    (kf_elem (so_el (xemp_string _) (xfit_string v _ _)) rfl <|
    kf_elem (pt_el (fun a _ => xfit_f32 v _ a)) rfl <|
    kf_plain (so_opt (xfit_string v _ _)) rfl <|
    kf_nil)).congr ?_
  simp only [EvidenceIdentityMethod.XFits, EvidenceIdentityMethod.toP, and_true, true_and, and_assoc, implies_true, ne_eq, or_false, false_or]

theorem xfit_evidenceIdentity (v : Int) (n : String) (x : EvidenceIdentity) : CFit v .identity X.evidenceIdentity n x True (x.XFits v) := by
  refine (cf_struct (af_elem <| af_elem <| af_elem <| af_elem <| af_elem <| af_nil) (rf_none rfl) (.inr rfl)
    (kf_elem (so_el (xemp_string _) (xfit_string v _ _)) rfl <|
    kf_plain (pt_opt (fun a _ => xfit_f32 v _ a)) rfl <|
    kf_elem (bf_since_t (so_empty (xemp_string _) (xfit_string v _ _)) (so_opt (xfit_string v _ _)) rfl) rfl <|
    kf_elem (np_opt (r := .methods) rfl (fun h => by simp [h, PSlice.elems]) (lp_many (fun _ => rfl) (fun a _ => xfit_evidenceIdentityMethod v _ a))) rfl <|
    kf_plain (nt_opt (r := .componentEvidenceIdentityTools) rfl (lt_many (fun a _ => xfit_bomReference v _ a))) rfl <|
    kf_nil)).congr ?_
  simp only [EvidenceIdentity.XFits, EvidenceIdentity.toP, and_true, true_and, and_assoc, implies_true, ne_eq, or_false, false_or]

theorem xfit_evidenceOccurrence (v : Int) (n : String) (x : EvidenceOccurrence) : CFit v .occurrence X.evidenceOccurrence n x True (x.XFits v) := by
  refine (cf_struct (aa_ok rfl <| af_elem <| ap_never rfl <| ap_never rfl <| aa_never_oe rfl (emt_string _) <| aa_never_oe rfl (emt_string _) <| af_nil) (rf_none rfl) (.inr rfl)
    (kf_elem (so_el (xemp_string _) (xfit_string v _ _)) rfl <|
    kf_gap rfl <|
    kf_gap rfl <|
    kf_gap rfl <|
    kf_gap rfl <|
    kf_nil)).congr ?_
  simp only [EvidenceOccurrence.XFits, EvidenceOccurrence.toP, and_true, true_and, and_assoc, implies_true, ne_eq, or_false, false_or]

theorem xfit_organizationalEntityOrContact (v : Int) (n : String) (x : OrganizationalEntityOrContact) : CFit v .licensee X.organizationalEntityOrContact n x True (x.XFits v) := by
  refine (cf_struct (af_elem <| af_elem <| af_nil) (rf_none rfl) (.inr rfl)
    (kf_choice (kf_single (kf_elem (pp_opt (fun a _ => xfit_organizationalEntity v _ a)) rfl <|
    kf_none (pt_empty (fun a _ => xfit_organizationalContact v _ a)) rfl <|
    kf_nil)) (kf_single (kf_none (pt_empty (fun a _ => xfit_organizationalEntity v _ a)) rfl <|
    kf_elem (pp_opt (fun a _ => xfit_organizationalContact v _ a)) rfl <|
    kf_nil)))).congr ?_
  simp only [OrganizationalEntityOrContact.XFits, OrganizationalEntityOrContact.toP, and_true, true_and, and_assoc, implies_true, ne_eq, or_false, false_or]

theorem xfit_licensing (v : Int) (n : String) (x : Licensing) : CFit v .licensing X.licensing n x True (x.XFits v) := by
  refine (cf_struct (af_elem <| af_elem <| af_elem <| af_elem <| af_elem <| af_elem <| af_elem <| af_elem <| af_nil) (rf_none rfl) (.inr rfl)
    (kf_plain (nt_opt (r := .altIds) rfl (lt_many (fun a _ => xfit_string v _ a))) rfl <|
    kf_elem (pp_opt (fun a _ => xfit_organizationalEntityOrContact v _ a)) rfl <|
    kf_elem (pp_opt (fun a _ => xfit_organizationalEntityOrContact v _ a)) rfl <|
    kf_elem (pp_opt (fun a _ => xfit_organizationalEntityOrContact v _ a)) rfl <|
    kf_plain (so_opt (xfit_string v _ _)) rfl <|
    kf_plain (nt_opt (r := .licenseTypes) rfl (lt_many (fun a _ => xfit_string v _ a))) rfl <|
    kf_plain (so_opt (xfit_string v _ _)) rfl <|
    kf_plain (so_opt (xfit_string v _ _)) rfl <|
    kf_nil)).congr ?_
  simp only [Licensing.XFits, Licensing.toP, and_true, true_and, and_assoc, implies_true, ne_eq, or_false, false_or]

theorem xfit_license (v : Int) (n : String) (x : License) : CFit v .license X.license n x True (x.XFits v) := by
  have H := fun (T : x.id = "" ↔ x.name ≠ "") => CFit.congr (Q := x.XFits v)
    (cf_struct (v := v) (p := .license) (n := n) (s := x) (F := X.licenseFields) (toP := License.toP) (ofP := License.ofP)
      (aa_since_oe rfl (emt_string _) <| af_elem <| af_elem <| aa_since_oe rfl (emt_string _) <| af_elem <| af_elem <| af_elem <| af_elem <| af_nil) (rf_none rfl) (.inr rfl)
    (kf_group (fs := [_, _]) (kf_switch (kf_switch_same (kf_choice (kf_single (kf_plain (so_many (xfit_string v _ _)) rfl <|
    kf_none (so_empty (xemp_string _) (xfit_string v _ _)) rfl <|
    kf_nil)) (kf_single (kf_none (so_empty (xemp_string _) (xfit_string v _ _)) rfl <|
    kf_plain (so_many (xfit_string v _ _)) rfl <|
    kf_nil))) (kf_choice (kf_single (kf_plain (so_opt (xfit_string v _ _)) rfl <|
    kf_none (so_empty (xemp_string _) (xfit_string v _ _)) rfl <|
    kf_nil)) (kf_single (kf_none (so_empty (xemp_string _) (xfit_string v _ _)) rfl <|
    kf_plain (so_opt (xfit_string v _ _)) rfl <|
    kf_nil)))) (kf_choice (kf_single (kf_elem (so_el (xemp_string _) (xfit_string v _ _)) rfl <|
    kf_none (so_empty (xemp_string _) (xfit_string v _ _)) rfl <|
    kf_nil)) (kf_single (kf_none (so_empty (xemp_string _) (xfit_string v _ _)) rfl <|
    kf_elem (so_el (xemp_string _) (xfit_string v _ _)) rfl <|
    kf_nil)))) rfl rfl <|
    kf_elem (bf_since_t (pt_empty (fun a _ => xfit_attachedText v _ a)) (pt_opt (fun a _ => xfit_attachedText v _ a)) rfl) rfl <|
    kf_elem (bf_since_t (so_empty (xemp_string _) (xfit_string v _ _)) (so_opt (xfit_string v _ _)) rfl) rfl <|
    kf_elem (bf_since (pt_empty (fun a _ => xfit_licensing v _ a)) (pp_opt (fun a _ => xfit_licensing v _ a)) rfl) rfl <|
    kf_elem (bf_since_t (bf_nlist_empty) (nt_opt (r := .properties) rfl (lt_many (fun a _ => xfit_property v _ a))) rfl) rfl <|
    kf_nil)) (by
    simp only [License.XFits, License.toP, and_true, true_and, and_assoc, implies_true, ne_eq, or_false, false_or, T]
    by_cases h : x.name = "" <;> simp [h] <;> intros <;> omega)
  intro o ho
  simp only [X.license] at ho
  split at ho
  · cases ho
  · rename_i h
    split at ho
    · cases ho
    · rename_i h'
      exact H (by by_cases hi : x.id = "" <;> simp_all) o ho


theorem xfit_licenseExpressionDetail (v : Int) (n : String) (x : LicenseExpressionDetail) :
    CFit v .licenseExpressionDetailedTypeDetails X.licenseExpressionDetail n x True True :=
  (cf_struct (F := X.licenseExpressionDetailFields) (aa_ok rfl <| af_elem <| af_elem <| af_nil)
    (rf_one rfl wr_here) (.inr rfl)
    (kf_plain (pt_opt fun a _ => xfit_attachedText v _ a) rfl <| kf_plain (so_opt (xfit_string v _ _)) rfl <| kf_nil)).congr
    (by simp)

theorem xfit_licenseExpression (v : Int) (n : String) (p : String × String × String × Unit) :
    CFit v .licenseExpression (XCodec.struct X.licenseExpressionFields id id) n p True
      (SpecVersion1_6 ≤ v ∨ p.2.2.1 = "" ∧ p.2.1 = "") :=
  (cf_struct (F := X.licenseExpressionFields) (af_chardata <| aa_since_oe rfl (emt_string _) <|
    aa_since_oe rfl (emt_string _) <| af_nil) (rf_none rfl) (.inl rfl) kf_nil).congr (by
      simp only [id]
      by_cases h : SpecVersion1_6 ≤ v <;> simp [h, and_comm])

theorem xfit_licenseExpressionDetailed (v : Int) (n : String)
    (p : String × String × String × PSlice LicenseExpressionDetail × Unit) :
    CFit v .licenseExpressionDetailed (XCodec.struct X.licenseExpressionDetailedFields id id) n p True True :=
  (cf_struct (F := X.licenseExpressionDetailedFields) (aa_ok rfl <| aa_ok rfl <| aa_ok rfl <| af_elem <| af_nil)
    (rf_one rfl wr_here) (.inr rfl)
    (kf_plain (lt_many fun a _ => xfit_licenseExpressionDetail v _ a) rfl <| kf_gap rfl <| kf_gap rfl <| kf_nil)).congr
    (by simp)

/-- What is written for a choice. -/
theorem licenseChoice_written (v : Int) {c : LicenseChoice} {k : List Xml} (h : X.licenseChoiceEnc c = some k) :
    (∃ l x, c.license = some l ∧ c.expression = "" ∧ k = [x] ∧ x.isElem "license" = true ∧
      (XValid v .license x ↔ l.XFits v)) ∨
    (c.license = none ∧ c.expression = "" ∧ k = []) ∨
    (∃ x, c.license = none ∧ c.expression ≠ "" ∧ c.expressionDetails = .nil ∧ k = [x] ∧ x.isElem "expression" = true ∧
      (XValid v .licenseExpression x ↔ SpecVersion1_6 ≤ v ∨ c.bomRef = "" ∧ c.acknowledgement.getD "" = "")) ∨
    (∃ x, c.license = none ∧ c.expression ≠ "" ∧ c.expressionDetails ≠ .nil ∧ k = [x] ∧
      x.isElem "expression-detailed" = true ∧ XValid v .licenseExpressionDetailed x) := by
  simp only [X.licenseChoiceEnc] at h
  split at h
  · rename_i l hl
    split at h
    · cases h
    · rename_i he
      obtain ⟨o, ho, rfl⟩ := Option.map_eq_some_iff.mp h
      obtain ⟨h₁, h₂⟩ := xfit_license v "license" l o ho
      obtain ⟨x, rfl⟩ := Option.isSome_iff_exists.mp (h₁.mpr trivial)
      exact .inl ⟨l, x, hl, not_not.mp he, rfl, h₂ x rfl⟩
  · rename_i hl
    split at h
    · rename_i he
      split at h
      · rename_i hd
        obtain ⟨o, ho, rfl⟩ := Option.map_eq_some_iff.mp h
        obtain ⟨h₁, h₂⟩ := xfit_licenseExpression v "expression" _ o ho
        obtain ⟨x, rfl⟩ := Option.isSome_iff_exists.mp (h₁.mpr trivial)
        refine .inr (.inr (.inl ⟨x, hl, he, ?_, rfl, h₂ x rfl⟩))
        cases hq : c.expressionDetails <;> simp_all [PSlice.isNil]
      · rename_i hd
        obtain ⟨o, ho, rfl⟩ := Option.map_eq_some_iff.mp h
        obtain ⟨h₁, h₂⟩ := xfit_licenseExpressionDetailed v "expression-detailed" _ o ho
        obtain ⟨x, rfl⟩ := Option.isSome_iff_exists.mp (h₁.mpr trivial)
        refine .inr (.inr (.inr ⟨x, hl, he, ?_, rfl, (h₂ x rfl).1, (h₂ x rfl).2.mpr trivial⟩))
        rintro hq
        simp [hq, PSlice.isNil] at hd
    · rename_i he
      cases h
      exact .inr (.inl ⟨hl, not_not.mp he, rfl⟩)

theorem xfitsLicenses_nil (v : Int) : XFitsLicenses v [] := .inl rfl

theorem isElem_unique {x : Xml} {m n : String} (h : x.isElem m = true) : x.isElem n = true ↔ m = n := by
  cases x with
  | elem k as ks => simp only [Xml.isElem, decide_eq_true_eq] at h ⊢; rw [h]
  | text s => simp [Xml.isElem] at h

theorem matches_el_one {v : Int} {ok : XPlace → Xml → Prop} {n : String} {p : XPlace} {x : Xml} :
    (Content.el n p).Matches v ok [x] ↔ x.isElem n = true ∧ ok p x := by
  rw [Content.matches_el]; simp

theorem xfit_licenses (v : Int) (n : String) (l : List LicenseChoice) :
    CFit v .licenseChoice X.licenses n l (l ≠ []) (XFitsLicenses v l) := by
  intro o ho
  cases hl : l with
  | nil =>
    subst hl
    simp only [X.licenses, Option.some.injEq] at ho
    subst ho
    simp
  | cons c cs =>
    have hne : l ≠ [] := by simp [hl]
    have ho' : (X.encEach X.licenseChoiceEnc l).map (fun ks => some (Xml.elem n [] ks)) = some o := by
      rw [hl] at ho ⊢; exact ho
    rw [← hl]
    clear hl ho
    obtain ⟨ks, hks, rfl⟩ := Option.map_eq_some_iff.mp ho'
    refine ⟨by simp [hne], ?_⟩
    simp only [Option.mem_def, Option.some.injEq, forall_eq']
    refine ⟨by simp [Xml.isElem], ?_⟩
    rw [xvalid_bare rfl (encEach_elems hks fun a _ k hk x hx => by
      rcases licenseChoice_written v hk with ⟨_, y, _, _, rfl, h, _⟩ | ⟨_, _, rfl⟩ | ⟨y, _, _, _, rfl, h, _⟩ |
          ⟨y, _, _, _, rfl, h, _⟩
      · rw [List.mem_singleton.mp hx]; exact ⟨_, h⟩
      · cases hx
      · rw [List.mem_singleton.mp hx]; exact ⟨_, h⟩
      · rw [List.mem_singleton.mp hx]; exact ⟨_, h⟩)]
    -- all licenses
    have hlic : (∀ x ∈ ks, x.isElem "license" = true ∧ XValid v .license x) ↔
        ∀ c ∈ l, (∀ y ∈ c.license, License.XFits v y) ∧ (c.license ≠ none ∨ c.expression = "") := by
      refine encEach_all hks fun a _ k hk => ?_
      rcases licenseChoice_written v hk with ⟨_, y, h₁, h₂, rfl, h, h'⟩ | ⟨h₁, h₂, rfl⟩ | ⟨y, h₁, h₂, h₃, rfl, h, h'⟩ |
          ⟨y, h₁, h₂, h₃, rfl, h, h'⟩
      · simp [h, h₁, h']
      · simp [h₁, h₂]
      · simp [isElem_unique h, h₁, h₂]
      · simp [isElem_unique h, h₁, h₂]
    -- all expressions
    have hexp : (∀ x ∈ ks, x.isElem "expression" = true ∧ XValid v .licenseExpression x) ↔
        ∀ c ∈ l, c.license = none ∧ (c.expression ≠ "" → c.expressionDetails = .nil ∧
          (SpecVersion1_6 ≤ v ∨ c.bomRef = "" ∧ c.acknowledgement.getD "" = "")) := by
      refine encEach_all hks fun a _ k hk => ?_
      rcases licenseChoice_written v hk with ⟨_, y, h₁, h₂, rfl, h, h'⟩ | ⟨h₁, h₂, rfl⟩ | ⟨y, h₁, h₂, h₃, rfl, h, h'⟩ |
          ⟨y, h₁, h₂, h₃, rfl, h, h'⟩
      · simp [isElem_unique h, h₁]
      · simp [h₁, h₂]
      · simp [h, h₁, h₂, h₃, h']
      · simp [isElem_unique h, h₁, h₂, h₃]
    -- any of them
    have hany : (∀ x ∈ ks, (Content.choice (.el "license" .license) (.choice (.el "expression" .licenseExpression)
        (.el "expression-detailed" .licenseExpressionDetailed))).Matches v (XValid v) [x]) ↔
        ∀ c ∈ l, (∀ y ∈ c.license, License.XFits v y) ∧ (c.license = none → c.expression ≠ "" →
          c.expressionDetails = .nil → (SpecVersion1_6 ≤ v ∨ c.bomRef = "" ∧ c.acknowledgement.getD "" = "")) := by
      refine encEach_all hks fun a _ k hk => ?_
      simp only [Content.matches_choice, matches_el_one]
      rcases licenseChoice_written v hk with ⟨_, y, h₁, h₂, rfl, h, h'⟩ | ⟨h₁, h₂, rfl⟩ | ⟨y, h₁, h₂, h₃, rfl, h, h'⟩ |
          ⟨y, h₁, h₂, h₃, rfl, h, h'⟩
      · simp [isElem_unique h, h₁, h']
      · simp [h₁, h₂]
      · simp [isElem_unique h, h₁, h₂, h₃, h']
      · simp [isElem_unique h, h₁, h₂, h₃, h']
    have hlen := encEach_length (w := fun c => decide (c.license ≠ none ∨ c.expression ≠ "")) hks fun a _ k hk => by
      rcases licenseChoice_written v hk with ⟨_, y, h₁, h₂, rfl, h, h'⟩ | ⟨h₁, h₂, rfl⟩ | ⟨y, h₁, h₂, h₃, rfl, h, h'⟩ |
          ⟨y, h₁, h₂, h₃, rfl, h, h'⟩ <;> simp [h₁, h₂]
    show (Content.switch SpecVersion1_7 (.switch SpecVersion1_1 (.some (.el "license" .license))
      (.choice (.many (.el "license" .license)) (.opt (.el "expression" .licenseExpression))))
      (.many (.choice (.el "license" .license) (.choice (.el "expression" .licenseExpression)
        (.el "expression-detailed" .licenseExpressionDetailed))))).Matches v (XValid v) ks ↔ _
    rw [Content.matches_switch, Content.matches_switch, matches_some_el, Content.matches_choice, Content.matches_many_el,
      matches_opt_el, matches_many_single, hlic, hexp, hany]
    · have hks0 : ks ≠ [] ↔ ∃ c ∈ l, c.license ≠ none ∨ c.expression ≠ "" := by
        rw [ne_eq, ← List.length_eq_zero_iff, hlen, List.length_eq_zero_iff, List.filter_eq_nil_iff]
        simp only [decide_eq_true_eq, not_forall, not_not, exists_prop]
      rw [hks0]
      simp only [XFitsLicenses, hne, false_or]
      by_cases h7 : SpecVersion1_7 ≤ v
      · have h6 : SpecVersion1_6 ≤ v := by simp only [SpecVersion1_7, SpecVersion1_6] at *; omega
        simp only [h7, h6, Int.not_lt.mpr h7, true_or, and_true, true_and, false_and, false_or, LicenseChoice.XFits, implies_true]
        refine forall₂_congr fun c hc => ?_
        by_cases hd : c.expressionDetails = .nil <;> simp [hd]
      · simp only [h7, Int.not_le.mp h7, true_and, false_and, or_false, false_or]
        by_cases h1 : SpecVersion1_1 ≤ v
        · simp only [h1, Int.not_lt.mpr h1, true_and, false_and, false_or, true_or, and_true]
          constructor
          · rintro (h | ⟨h, h'⟩)
            · refine ⟨fun c hc => ⟨(h c hc).1, fun hn he => ?_⟩, .inl fun c hc => (h c hc).2⟩
              exact absurd ((h c hc).2.resolve_left (by simp [hn])) he
            · refine ⟨fun c hc => ⟨by simp [(h' c hc).1], fun _ he => .inl ((h' c hc).2 he)⟩,
                .inr ⟨fun c hc => (h' c hc).1, ?_⟩⟩
              rw [hlen] at h
              convert h using 2
              refine List.filter_congr fun c hc => ?_
              simp [(h' c hc).1]
          · rintro ⟨h, h' | ⟨h', h''⟩⟩
            · exact .inl fun c hc => ⟨(h c hc).1, h' c hc⟩
            · refine .inr ⟨?_, fun c hc => ⟨h' c hc, fun he => ?_⟩⟩
              · rw [hlen]
                convert h'' using 2
                refine List.filter_congr fun c hc => ?_
                simp [h' c hc]
              · rcases (h c hc).2 (h' c hc) he with hh | ⟨_, hh⟩
                · exact hh
                · exact absurd hh h7
        · simp only [h1, Int.not_le.mp h1, true_and, false_and, or_false, false_or]
          constructor
          · rintro ⟨⟨c, hc, h⟩, h'⟩
            refine ⟨fun c hc => ⟨(h' c hc).1, fun hn he => ?_⟩, fun c hc => (h' c hc).2, c, hc, ?_⟩
            · exact absurd ((h' c hc).2.resolve_left (by simp [hn])) he
            · exact h.elim _root_.id fun he => (h' c hc).2.resolve_right he
          · rintro ⟨h, h', c, hc, hn⟩
            exact ⟨⟨c, hc, .inl hn⟩, fun c hc => ⟨(h c hc).1, h' c hc⟩⟩
    · intro l h
      simp only [Content.matches_choice, Content.matches_el] at h
      rcases h with ⟨x, rfl, _⟩ | ⟨x, rfl, _⟩ | ⟨x, rfl, _⟩ <;> exact ⟨x, rfl⟩


theorem evidenceIdentities_eq (x : Evidence) : X.evidenceIdentities x = x.writtenIdentities := by
  simp only [X.evidenceIdentities, Evidence.writtenIdentities]
  cases hc : x.identity with
  | none => rfl
  | some c =>
    cases hi : c.identities <;> cases hj : c.identity <;> simp [hi, hj, PSlice.isNil]

theorem xfit_evidence (v : Int) (n : String) (x : Evidence) :
    CFit v .componentEvidence X.evidence n x x.XWritten (x.XFits v) := by
  intro o ho
  simp only [X.evidence] at ho
  have nn : ∀ {α : Type} (p : PSlice α), p.isNil = true ↔ p = .nil := by
    intro α p; cases p <;> simp [PSlice.isNil]
  split at ho
  · rename_i h
    simp only [Option.isNone_iff_eq_none, nn] at h
    cases ho
    simp [Evidence.XWritten, h]
  · rename_i h
    simp only [Option.isNone_iff_eq_none, nn] at h
    have hw : x.XWritten := by
      simp only [Evidence.XWritten]
      by_contra hc
      simp only [not_or, ne_eq, not_not] at hc
      exact h ⟨hc.1, hc.2.1, hc.2.2.1, hc.2.2.2.1, hc.2.2.2.2⟩
    have H := (cf_struct (v := v) (p := .componentEvidence) (F := X.evidenceFields) (toP := _root_.id) (ofP := _root_.id) (af_elem <| af_elem <| af_elem <| af_elem <| af_elem <| af_nil) (rf_none rfl) (.inr rfl)
    (kf_elem (bf_switch (bf_since (lp_empty (fun _ => rfl) (fun a _ => xfit_evidenceIdentity v _ a)) (lp_opt (fun _ => rfl) (fun a _ => xfit_evidenceIdentity v _ a)) rfl) (lp_many (fun _ => rfl) (fun a _ => xfit_evidenceIdentity v _ a))) rfl <|
    kf_elem (bf_since (bf_nlist_empty) (np_opt (r := .occurrences) rfl (fun h => by rw [h]; simp [PSlice.elems]) (lp_many (fun _ => rfl) (fun a _ => xfit_evidenceOccurrence v _ a))) rfl) rfl <|
    kf_elem (bf_since (pt_empty (fun a _ => xfit_callstack v _ a)) (pp_opt (fun a _ => xfit_callstack v _ a)) rfl) rfl <|
    kf_elem (sp_opt (fun h => by rw [h]; exact xfitsLicenses_nil v) (xfit_licenses v _ _)) rfl <|
    kf_plain (nt_opt (r := .copyrights) rfl (lt_many (fun a _ => xfit_copyright v _ a))) rfl <|
    kf_nil)) o ho
    simpa only [hw, evidenceIdentities_eq, Evidence.XFits, id, and_true, true_and, and_assoc] using H

theorem evidence_unwritten (v : Int) (x : Evidence) (h : ¬ x.XWritten) : x.XFits v := by
  simp only [Evidence.XWritten, not_or, ne_eq, not_not] at h
  obtain ⟨h₁, h₂, h₃, h₄, h₅⟩ := h
  simp only [Evidence.XFits, Evidence.writtenIdentities, h₁, h₂, h₃, h₄, PSlice.elems, List.not_mem_nil, true_or,
    and_true, XFitsLicenses, false_implies, implies_true]
  omega


theorem xfit_externalReference (v : Int) (n : String) (x : ExternalReference) : CFit v .externalReference X.externalReference n x True (x.XFits v) := by
  refine (cf_struct (af_elem <| af_elem <| af_elem <| aa_ok rfl <| af_elem <| af_nil) (rf_one rfl (wr_elem <| wr_elem <| wr_elem <| wr_here)) (.inr rfl)
    (kf_plain (bf_plain_el (xfit_string v _ _)) rfl <|
    kf_plain (so_opt (xfit_string v _ _)) rfl <|
    kf_elem (bf_since_t (bf_nlist_empty) (nt_opt (r := .toolTypeHashes) rfl (lt_many (fun a _ => xfit_hash v _ a))) rfl) rfl <|
    kf_elem (bf_since_t (bf_nlist_empty) (nt_opt (r := .properties) rfl (lt_many (fun a _ => xfit_property v _ a))) rfl) rfl <|
    kf_nil)).congr ?_
  simp only [ExternalReference.XFits, ExternalReference.toP, and_true, true_and, and_assoc, implies_true, ne_eq, or_false, false_or]

theorem xfit_mlModelCO2Measure (v : Int) (n : String) (x : MLModelCO2Measure) : CFit v .co2Measure X.mlModelCO2Measure n x True True := by
  refine (cf_struct (af_elem <| af_elem <| af_nil) (rf_none rfl) (.inr rfl)
    (kf_plain (bf_plain_el (xfit_f32 v _ _)) rfl <|
    kf_plain (bf_plain_el (xfit_string v _ _)) rfl <|
    kf_nil)).congr ?_
  simp only [MLModelCO2Measure.toP, and_true, true_and, and_assoc, implies_true, ne_eq, or_false, false_or]

theorem xfit_mlModelEnergyMeasure (v : Int) (n : String) (x : MLModelEnergyMeasure) : CFit v .co2Measure X.mlModelEnergyMeasure n x True True := by
  refine (cf_struct (af_elem <| af_elem <| af_nil) (rf_none rfl) (.inr rfl)
    (kf_plain (bf_plain_el (xfit_f32 v _ _)) rfl <|
    kf_plain (bf_plain_el (xfit_string v _ _)) rfl <|
    kf_nil)).congr ?_
  simp only [MLModelEnergyMeasure.toP, and_true, true_and, and_assoc, implies_true, ne_eq, or_false, false_or]

theorem xfit_mlModelEnergyProvider (v : Int) (n : String) (x : MLModelEnergyProvider) : CFit v .energyProvider X.mlModelEnergyProvider n x True (x.XFits v) := by
  refine (cf_struct (aa_ok rfl <| af_elem <| af_elem <| af_elem <| af_elem <| af_elem <| af_nil) (rf_none rfl) (.inr rfl)
    (kf_plain (so_opt (xfit_string v _ _)) rfl <|
    kf_elem (pp_el (fun a _ => xfit_organizationalEntity v _ a)) rfl <|
    kf_plain (bf_plain_el (xfit_string v _ _)) rfl <|
    kf_elem (pt_el (fun a _ => xfit_mlModelEnergyMeasure v _ a)) rfl <|
    kf_elem (np_opt (r := .externalReferences) rfl (fun h => by simp [h, PSlice.elems]) (lp_many (fun _ => rfl) (fun a _ => xfit_externalReference v _ a))) rfl <|
    kf_nil)).congr ?_
  simp only [MLModelEnergyProvider.XFits, MLModelEnergyProvider.toP, and_true, true_and, and_assoc, implies_true, ne_eq, or_false, false_or]

theorem xfit_mlModelEnergyConsumption (v : Int) (n : String) (x : MLModelEnergyConsumption) : CFit v .energyConsumption X.mlModelEnergyConsumption n x True (x.XFits v) := by
  refine (cf_struct (af_elem <| af_elem <| af_elem <| af_elem <| af_elem <| af_elem <| af_nil) (rf_none rfl) (.inr rfl)
    (kf_plain (bf_plain_el (xfit_string v _ _)) rfl <|
    kf_elem (lp_some (fun _ => rfl) (fun a _ => xfit_mlModelEnergyProvider v _ a)) rfl <|
    kf_plain (bf_plain_el (xfit_mlModelEnergyMeasure v _ _)) rfl <|
    kf_plain (pt_opt (fun a _ => xfit_mlModelCO2Measure v _ a)) rfl <|
    kf_plain (pt_opt (fun a _ => xfit_mlModelCO2Measure v _ a)) rfl <|
    kf_plain (nt_opt (r := .properties) rfl (lt_many (fun a _ => xfit_property v _ a))) rfl <|
    kf_nil)).congr ?_
  simp only [MLModelEnergyConsumption.XFits, MLModelEnergyConsumption.toP, and_true, true_and, and_assoc, implies_true, ne_eq, or_false, false_or]

theorem xfit_mlModelCardEnvironmentalConsiderations (v : Int) (n : String) (x : MLModelCardEnvironmentalConsiderations) : CFit v .environmentalConsiderations X.mlModelCardEnvironmentalConsiderations n x True (x.XFits v) := by
  refine (cf_struct (af_elem <| af_elem <| af_nil) (rf_none rfl) (.inr rfl)
    (kf_elem (np_many (r := .energyConsumptions) rfl (fun h => by simp [h, PSlice.elems]) (lp_many (fun _ => rfl) (fun a _ => xfit_mlModelEnergyConsumption v _ a))) rfl <|
    kf_plain (nt_opt (r := .properties) rfl (lt_many (fun a _ => xfit_property v _ a))) rfl <|
    kf_nil)).congr ?_
  simp only [MLModelCardEnvironmentalConsiderations.XFits, MLModelCardEnvironmentalConsiderations.toP, and_true, true_and, and_assoc, implies_true, ne_eq, or_false, false_or]

theorem xfit_mlModelCardEthicalConsideration (v : Int) (n : String) (x : MLModelCardEthicalConsideration) : CFit v .ethicalConsideration X.mlModelCardEthicalConsideration n x True True := by
  refine (cf_struct (af_elem <| af_elem <| af_nil) (rf_none rfl) (.inr rfl)
    (kf_plain (so_opt (xfit_string v _ _)) rfl <|
    kf_plain (so_opt (xfit_string v _ _)) rfl <|
    kf_nil)).congr ?_
  simp only [MLModelCardEthicalConsideration.toP, and_true, true_and, and_assoc, implies_true, ne_eq, or_false, false_or]

theorem xfit_mlModelCardFairnessAssessment (v : Int) (n : String) (x : MLModelCardFairnessAssessment) : CFit v .fairnessAssessment X.mlModelCardFairnessAssessment n x True True := by
  refine (cf_struct (af_elem <| af_elem <| af_elem <| af_elem <| af_nil) (rf_none rfl) (.inr rfl)
    (kf_plain (so_opt (xfit_string v _ _)) rfl <|
    kf_plain (so_opt (xfit_string v _ _)) rfl <|
    kf_plain (so_opt (xfit_string v _ _)) rfl <|
    kf_plain (so_opt (xfit_string v _ _)) rfl <|
    kf_nil)).congr ?_
  simp only [MLModelCardFairnessAssessment.toP, and_true, true_and, and_assoc, implies_true, ne_eq, or_false, false_or]

theorem xfit_mlModelCardConsiderations (v : Int) (n : String) (x : MLModelCardConsiderations) : CFit v .considerations X.mlModelCardConsiderations n x True (x.XFits v) := by
  refine (cf_struct (af_elem <| af_elem <| af_elem <| af_elem <| af_elem <| af_elem <| af_elem <| af_nil) (rf_none rfl) (.inr rfl)
    (kf_elem (np_opt (r := .users) rfl (fun h => by simp [h, PSlice.elems]) (ls_opt xemp_string (fun a _ => xfit_string v _ a))) rfl <|
    kf_elem (np_opt (r := .useCases) rfl (fun h => by simp [h, PSlice.elems]) (ls_opt xemp_string (fun a _ => xfit_string v _ a))) rfl <|
    kf_elem (np_opt (r := .technicalLimitations) rfl (fun h => by simp [h, PSlice.elems]) (ls_opt xemp_string (fun a _ => xfit_string v _ a))) rfl <|
    kf_elem (np_opt (r := .performanceTradeoffs) rfl (fun h => by simp [h, PSlice.elems]) (ls_opt xemp_string (fun a _ => xfit_string v _ a))) rfl <|
    kf_plain (nt_opt (r := .ethicalConsiderations) rfl (lt_many (fun a _ => xfit_mlModelCardEthicalConsideration v _ a))) rfl <|
    kf_elem (bf_since (pt_empty (fun a _ => xfit_mlModelCardEnvironmentalConsiderations v _ a)) (pp_opt (fun a _ => xfit_mlModelCardEnvironmentalConsiderations v _ a)) rfl) rfl <|
    kf_plain (nt_opt (r := .fairnessAssessments) rfl (lt_many (fun a _ => xfit_mlModelCardFairnessAssessment v _ a))) rfl <|
    kf_nil)).congr ?_
  simp only [MLModelCardConsiderations.XFits, MLModelCardConsiderations.toP, and_true, true_and, and_assoc, implies_true, ne_eq, or_false, false_or]

theorem xfit_mlDatasetChoice (v : Int) (n : String) (x : MLDatasetChoice) :
    CFit v .componentData X.mlDatasetChoice n x x.XWritten (x.XFits v) := by
  intro o ho
  simp only [X.mlDatasetChoice] at ho
  split at ho
  · rename_i h
    have H := (cf_struct (v := v) (p := .componentData) (n := n) (s := x.ref) (toP := fun s => (s, ()))
      (ofP := fun p => p.1) (af_elem <| af_nil) (rf_none rfl) (.inr rfl)
      (kf_none (bf_plain_empty (xfit_string v _ _)) rfl <| kf_missing "type" rfl kf_nil)) o ho
    simpa [MLDatasetChoice.XWritten, MLDatasetChoice.XFits, h] using H
  · rename_i h
    have h : x.ref = "" := not_not.mp h
    split at ho
    · rename_i d hd
      simpa [MLDatasetChoice.XWritten, MLDatasetChoice.XFits, h, hd] using xfit_componentData v n d o ho
    · rename_i hd
      cases ho
      simp [MLDatasetChoice.XWritten, h, hd]

theorem mlDatasetChoice_unwritten (v : Int) (x : MLDatasetChoice) (h : ¬ x.XWritten) : x.XFits v := by
  simp only [MLDatasetChoice.XWritten, not_or, ne_eq, not_not] at h
  simp [MLDatasetChoice.XFits, h]


theorem xfit_mlInputOutputParameters (v : Int) (n : String) (x : MLInputOutputParameters) : CFit v .modelCardModelParametersInputsInput X.mlInputOutputParameters n x True (x.XFits v) := by
  refine (cf_struct (af_elem <| af_nil) (rf_none rfl) (.inr rfl)
    (kf_single (kf_elem (so_el (xemp_string _) (xfit_string v _ _)) rfl <|
    kf_nil))).congr ?_
  simp only [MLInputOutputParameters.XFits, MLInputOutputParameters.toP, and_true, true_and, and_assoc, implies_true, ne_eq, or_false, false_or]

theorem xfit_mlModelParametersApproach (v : Int) (n : String) (x : MLModelParametersApproach) : CFit v .approach X.mlModelParametersApproach n x True True := by
  refine (cf_struct (af_elem <| af_nil) (rf_none rfl) (.inr rfl)
    (kf_single (kf_plain (so_opt (xfit_string v _ _)) rfl <|
    kf_nil))).congr ?_
  simp only [MLModelParametersApproach.toP, and_true, true_and, and_assoc, implies_true, ne_eq, or_false, false_or]

theorem xfit_mlModelParameters (v : Int) (n : String) (x : MLModelParameters) : CFit v .modelParameters X.mlModelParameters n x True (x.XFits v) := by
  refine (cf_struct (af_elem <| af_elem <| af_elem <| af_elem <| af_elem <| af_elem <| af_elem <| af_nil) (rf_none rfl) (.inr rfl)
    (kf_plain (pt_opt (fun a _ => xfit_mlModelParametersApproach v _ a)) rfl <|
    kf_plain (so_opt (xfit_string v _ _)) rfl <|
    kf_plain (so_opt (xfit_string v _ _)) rfl <|
    kf_plain (so_opt (xfit_string v _ _)) rfl <|
    kf_elem (np_opt (r := .datasets) rfl (fun h => by simp [h, PSlice.elems]) (bf_many_right (lw_many (fun _ => rfl) (mlDatasetChoice_unwritten v) (fun a _ => xfit_mlDatasetChoice v _ a)) rfl)) rfl <|
    kf_elem (np_opt (r := .inputs) rfl (fun h => by simp [h, PSlice.elems]) (lp_many (fun _ => rfl) (fun a _ => xfit_mlInputOutputParameters v _ a))) rfl <|
    kf_elem (np_opt (r := .outputs) rfl (fun h => by simp [h, PSlice.elems]) (lp_many (fun _ => rfl) (fun a _ => xfit_mlInputOutputParameters v _ a))) rfl <|
    kf_nil)).congr ?_
  simp only [MLModelParameters.XFits, MLModelParameters.toP, and_true, true_and, and_assoc, implies_true, ne_eq, or_false, false_or]

theorem xfit_mlPerformanceMetricConfidenceInterval (v : Int) (n : String) (x : MLPerformanceMetricConfidenceInterval) : CFit v .performanceMetricConfidenceInterval X.mlPerformanceMetricConfidenceInterval n x True True := by
  refine (cf_struct (af_elem <| af_elem <| af_nil) (rf_none rfl) (.inr rfl)
    (kf_plain (so_opt (xfit_string v _ _)) rfl <|
    kf_plain (so_opt (xfit_string v _ _)) rfl <|
    kf_nil)).congr ?_
  simp only [MLPerformanceMetricConfidenceInterval.toP, and_true, true_and, and_assoc, implies_true, ne_eq, or_false, false_or]

theorem xfit_mlPerformanceMetric (v : Int) (n : String) (x : MLPerformanceMetric) : CFit v .performanceMetric X.mlPerformanceMetric n x True True := by
  refine (cf_struct (af_elem <| af_elem <| af_elem <| af_elem <| af_nil) (rf_none rfl) (.inr rfl)
    (kf_plain (so_opt (xfit_string v _ _)) rfl <|
    kf_plain (so_opt (xfit_string v _ _)) rfl <|
    kf_plain (so_opt (xfit_string v _ _)) rfl <|
    kf_plain (pt_opt (fun a _ => xfit_mlPerformanceMetricConfidenceInterval v _ a)) rfl <|
    kf_nil)).congr ?_
  simp only [MLPerformanceMetric.toP, and_true, true_and, and_assoc, implies_true, ne_eq, or_false, false_or]

theorem xfit_mlQuantitativeAnalysis (v : Int) (n : String) (x : MLQuantitativeAnalysis) : CFit v .quantitativeAnalysis X.mlQuantitativeAnalysis n x True True := by
  refine (cf_struct (af_elem <| af_elem <| af_nil) (rf_none rfl) (.inr rfl)
    (kf_plain (nt_opt (r := .performanceMetrics) rfl (lt_many (fun a _ => xfit_mlPerformanceMetric v _ a))) rfl <|
    kf_plain (pt_opt (fun a _ => xfit_componentDataGraphics v _ a)) rfl <|
    kf_nil)).congr ?_
  simp only [MLQuantitativeAnalysis.toP, and_true, true_and, and_assoc, implies_true, ne_eq, or_false, false_or]

theorem xfit_mlModelCard (v : Int) (n : String) (x : MLModelCard) : CFit v .modelCard X.mlModelCard n x True (x.XFits v) := by
  refine (cf_struct (aa_ok rfl <| af_elem <| af_elem <| af_elem <| af_nil) (rf_none rfl) (.inr rfl)
    (kf_elem (pp_opt (fun a _ => xfit_mlModelParameters v _ a)) rfl <|
    kf_plain (pt_opt (fun a _ => xfit_mlQuantitativeAnalysis v _ a)) rfl <|
    kf_elem (pp_opt (fun a _ => xfit_mlModelCardConsiderations v _ a)) rfl <|
    kf_nil)).congr ?_
  simp only [MLModelCard.XFits, MLModelCard.toP, and_true, true_and, and_assoc, implies_true, ne_eq, or_false, false_or]

theorem xfit_identifiableAction (v : Int) (n : String) (x : IdentifiableAction) : CFit v .identifiableAction X.identifiableAction n x True True := by
  refine (cf_struct (af_elem <| af_elem <| af_elem <| af_nil) (rf_none rfl) (.inr rfl)
    (kf_plain (so_opt (xfit_string v _ _)) rfl <|
    kf_plain (so_opt (xfit_string v _ _)) rfl <|
    kf_plain (so_opt (xfit_string v _ _)) rfl <|
    kf_nil)).congr ?_
  simp only [IdentifiableAction.toP, and_true, true_and, and_assoc, implies_true, ne_eq, or_false, false_or]

theorem xfit_commit (v : Int) (n : String) (x : Commit) : CFit v .commit X.commit n x True True := by
  refine (cf_struct (af_elem <| af_elem <| af_elem <| af_elem <| af_elem <| af_nil) (rf_none rfl) (.inr rfl)
    (kf_plain (so_opt (xfit_string v _ _)) rfl <|
    kf_plain (so_opt (xfit_string v _ _)) rfl <|
    kf_plain (pt_opt (fun a _ => xfit_identifiableAction v _ a)) rfl <|
    kf_plain (pt_opt (fun a _ => xfit_identifiableAction v _ a)) rfl <|
    kf_plain (so_opt (xfit_string v _ _)) rfl <|
    kf_nil)).congr ?_
  simp only [Commit.toP, and_true, true_and, and_assoc, implies_true, ne_eq, or_false, false_or]

theorem xfit_diff (v : Int) (n : String) (x : Diff) : CFit v .diff X.diff n x True True := by
  refine (cf_struct (af_elem <| af_elem <| af_nil) (rf_none rfl) (.inr rfl)
    (kf_plain (pt_opt (fun a _ => xfit_attachedText v _ a)) rfl <|
    kf_plain (so_opt (xfit_string v _ _)) rfl <|
    kf_nil)).congr ?_
  simp only [Diff.toP, and_true, true_and, and_assoc, implies_true, ne_eq, or_false, false_or]

theorem xfit_source (v : Int) (n : String) (x : Source) : CFit v .vulnerabilitySource X.source n x True True := by
  refine (cf_struct (af_elem <| af_elem <| af_nil) (rf_none rfl) (.inr rfl)
    (kf_many_one (kf_plain (so_opt (xfit_string v _ _)) rfl <|
    kf_plain (so_opt (xfit_string v _ _)) rfl <|
    kf_nil))).congr ?_
  simp only [Source.toP, and_true, true_and, and_assoc, implies_true, ne_eq, or_false, false_or]

theorem xfit_source_issueTypeSource (v : Int) (n : String) (x : Source) : CFit v .issueTypeSource X.source n x True True := by
  refine (cf_struct (af_elem <| af_elem <| af_nil) (rf_none rfl) (.inr rfl)
    (kf_plain (so_opt (xfit_string v _ _)) rfl <|
    kf_plain (so_opt (xfit_string v _ _)) rfl <|
    kf_nil)).congr ?_
  simp only [Source.toP, and_true, true_and, and_assoc, implies_true, ne_eq, or_false, false_or]

theorem xfit_issue (v : Int) (n : String) (x : Issue) : CFit v .issue X.issue n x True True := by
  refine (cf_struct (af_elem <| af_elem <| af_elem <| af_elem <| af_elem <| aa_ok rfl <| af_nil) (rf_one rfl (wr_elem <| wr_elem <| wr_elem <| wr_elem <| wr_elem <| wr_here)) (.inr rfl)
    (kf_plain (bf_plain_opt (xfit_string v _ _)) rfl <|
    kf_plain (so_opt (xfit_string v _ _)) rfl <|
    kf_plain (bf_plain_opt (xfit_string v _ _)) rfl <|
    kf_plain (pt_opt (fun a _ => xfit_source_issueTypeSource v _ a)) rfl <|
    kf_plain (nt_opt (r := .issueTypeReferences) rfl (lt_many (fun a _ => xfit_string v _ a))) rfl <|
    kf_nil)).congr ?_
  simp only [Issue.toP, and_true, true_and, and_assoc, implies_true, ne_eq, or_false, false_or]

theorem xfit_patch (v : Int) (n : String) (x : Patch) : CFit v .patch X.patch n x True True := by
  refine (cf_struct (af_elem <| af_elem <| aa_ok rfl <| af_nil) (rf_one rfl (wr_elem <| wr_elem <| wr_here)) (.inr rfl)
    (kf_plain (pt_opt (fun a _ => xfit_diff v _ a)) rfl <|
    kf_plain (nt_opt (r := .patchTypeResolves) rfl (lt_many (fun a _ => xfit_issue v _ a))) rfl <|
    kf_nil)).congr ?_
  simp only [Patch.toP, and_true, true_and, and_assoc, implies_true, ne_eq, or_false, false_or]

theorem xfitsComponentList_iff {v : Int} : ∀ {xs : List Component}, XFitsComponentList v xs ↔ ∀ y ∈ xs, y.XFits v
  | [] => by simp [XFitsComponentList]
  | x :: xs => by simp [XFitsComponentList, xfitsComponentList_iff]

theorem xfitsComponents_iff {v : Int} {p : PSlice Component} : XFitsComponents v p ↔ ∀ y ∈ p.elems, y.XFits v := by
  cases p <;> simp [XFitsComponents, PSlice.elems, xfitsComponentList_iff]

theorem xfitsPedigreeOpt_iff {v : Int} {p : Option (Pedigree Component)} :
    XFitsPedigreeOpt v p ↔ ∀ y ∈ p, XFitsPedigree v y := by
  cases p <;> simp [XFitsPedigreeOpt]

theorem xfit_pedigreeWith (v : Int) (n : String) (x : Pedigree Component)
    (h_ancestors : ∀ c ∈ x.ancestors.elems, CFit v .component X.component "component" c True (c.XFits v))
    (h_descendants : ∀ c ∈ x.descendants.elems, CFit v .component X.component "component" c True (c.XFits v))
    (h_variants : ∀ c ∈ x.variants.elems, CFit v .component X.component "component" c True (c.XFits v)) :
    CFit v .pedigree (X.pedigree X.component) n x True (XFitsPedigree v x) := by
  refine (cf_struct (af_elem <| af_elem <| af_elem <| af_elem <| af_elem <| af_elem <| af_nil) (rf_none rfl) (.inr rfl)
    (kf_elem (np_opt (r := .components) rfl (fun h => by simp [h, PSlice.elems]) (lp_many (fun _ => rfl) h_ancestors)) rfl <|
    kf_elem (np_opt (r := .components) rfl (fun h => by simp [h, PSlice.elems]) (lp_many (fun _ => rfl) h_descendants)) rfl <|
    kf_elem (np_opt (r := .components) rfl (fun h => by simp [h, PSlice.elems]) (lp_many (fun _ => rfl) h_variants)) rfl <|
    kf_plain (nt_opt (r := .commits) rfl (lt_many (fun a _ => xfit_commit v _ a))) rfl <|
    kf_elem (bf_since_t (bf_nlist_empty) (nt_opt (r := .patches) rfl (lt_many (fun a _ => xfit_patch v _ a))) rfl) rfl <|
    kf_plain (so_opt (xfit_string v _ _)) rfl <|
    kf_nil)).congr ?_
  cases x
  simp only [XFitsPedigree, Pedigree.toP, xfitsComponents_iff, and_true, true_and, and_assoc]


theorem xfit_note (v : Int) (n : String) (x : Note) : CFit v .notesNote X.note n x True True := by
  refine (cf_struct (af_elem <| af_elem <| af_nil) (rf_none rfl) (.inr rfl)
    (kf_many_one (kf_plain (so_opt (xfit_string v _ _)) rfl <|
    kf_plain (bf_plain_el (xfit_attachedText v _ _)) rfl <|
    kf_nil))).congr ?_
  simp only [Note.toP, and_true, true_and, and_assoc, implies_true, ne_eq, or_false, false_or]

theorem xfit_releaseNotes (v : Int) (n : String) (x : ReleaseNotes) : CFit v .releaseNotes X.releaseNotes n x True True := by
  refine (cf_struct (af_elem <| af_elem <| af_elem <| af_elem <| af_elem <| af_elem <| af_elem <| af_elem <| af_elem <| af_elem <| af_elem <| af_nil) (rf_none rfl) (.inr rfl)
    (kf_many_one (kf_plain (bf_plain_el (xfit_string v _ _)) rfl <|
    kf_plain (so_opt (xfit_string v _ _)) rfl <|
    kf_plain (so_opt (xfit_string v _ _)) rfl <|
    kf_plain (so_opt (xfit_string v _ _)) rfl <|
    kf_plain (so_opt (xfit_string v _ _)) rfl <|
    kf_plain (so_opt (xfit_string v _ _)) rfl <|
    kf_plain (nt_opt (r := .workspaceTypeAliases) rfl (lt_many (fun a _ => xfit_string v _ a))) rfl <|
    kf_plain (nt_opt (r := .tags) rfl (lt_many (fun a _ => xfit_string v _ a))) rfl <|
    kf_plain (nt_opt (r := .patchTypeResolves) rfl (lt_many (fun a _ => xfit_issue v _ a))) rfl <|
    kf_plain (nt_opt (r := .notes) rfl (lt_many (fun a _ => xfit_note v _ a))) rfl <|
    kf_plain (nt_opt (r := .properties) rfl (lt_many (fun a _ => xfit_property v _ a))) rfl <|
    kf_nil))).congr ?_
  simp only [ReleaseNotes.toP, and_true, true_and, and_assoc, implies_true, ne_eq, or_false, false_or]

theorem xfit_swid (v : Int) (n : String) (x : SWID) : CFit v .swid X.swid n x True (x.XFits v) := by
  refine (cf_struct (af_elem <| aa_never_oe rfl (emt_string _) <| aa_ok rfl <| aa_ok rfl <| aa_ok rfl <| ap_ok rfl <| ap_ok rfl <| af_nil) (rf_two rfl (wr_elem <| wr_other rfl <| wr_here) (wr_elem <| wr_other rfl <| wr_other rfl <| wr_here)) (.inr rfl)
    (kf_plain (pt_opt (fun a _ => xfit_attachedText v _ a)) rfl <|
    kf_gap rfl <|
    kf_nil)).congr ?_
  simp only [SWID.XFits, SWID.toP, and_true, true_and, and_assoc, implies_true, ne_eq, or_false, false_or]

theorem xfit_asserterChoice (v : Int) (n : String) (x : AsserterChoice) :
    CFit v .asserter X.asserterChoice n x x.XWritten (x.XFits v) := by
  intro o ho
  simp only [X.asserterChoice] at ho
  split at ho
  · cases ho
  · rename_i a h₁ h₂
    have H := (cf_struct (v := v) (p := .asserter) (n := n) (s := some a) (toP := fun o => (o, ()))
      (ofP := fun p => p.1) (af_elem <| af_nil) (rf_none rfl) (.inr rfl)
      (kf_choice (kf_single (kf_elem (pp_el fun a _ => xfit_organizationalEntity v _ a) rfl kf_nil))
        (kf_choice
          (kf_single (kf_none (pt_empty fun a _ => xfit_organizationalEntity v _ a) rfl (kf_missing "contact" rfl kf_nil)))
          (kf_single (kf_none (pt_empty fun a _ => xfit_organizationalEntity v _ a) rfl (kf_missing "ref" rfl kf_nil)))))) o ho
    simpa [AsserterChoice.XWritten, AsserterChoice.XFits, h₁, h₂] using H
  · rename_i a h₁ h₂
    have H := (cf_struct (v := v) (p := .asserter) (n := n) (s := some a) (toP := fun o => (o, ()))
      (ofP := fun p => p.1) (af_elem <| af_nil) (rf_none rfl) (.inr rfl)
      (kf_choice
        (kf_single (kf_none (pt_empty fun a _ => xfit_organizationalContact v _ a) rfl (kf_missing "organization" rfl kf_nil)))
        (kf_choice (kf_single (kf_elem (pp_el fun a _ => xfit_organizationalContact v _ a) rfl kf_nil))
          (kf_single (kf_none (pt_empty fun a _ => xfit_organizationalContact v _ a) rfl (kf_missing "ref" rfl kf_nil)))))) o ho
    simpa [AsserterChoice.XWritten, AsserterChoice.XFits, h₁, h₂] using H
  · rename_i a h₁ h₂ h₃
    have H := (cf_struct (v := v) (p := .asserter) (n := n) (s := some a) (toP := fun o => (o, ()))
      (ofP := fun p => p.1) (af_elem <| af_nil) (rf_none rfl) (.inr rfl)
      (kf_choice
        (kf_single (kf_none (pt_empty fun a _ => xfit_bomReference v _ a) rfl (kf_missing "organization" rfl kf_nil)))
        (kf_choice
          (kf_single (kf_none (pt_empty fun a _ => xfit_bomReference v _ a) rfl (kf_missing "contact" rfl kf_nil)))
          (kf_single (kf_elem (pp_el fun a _ => xfit_bomReference_text v _ a) rfl kf_nil))))) o ho
    simpa [AsserterChoice.XWritten, AsserterChoice.XFits, h₁, h₂, h₃] using H
  · rename_i h₁ h₂ h₃
    cases ho
    simp [AsserterChoice.XWritten, h₁, h₂, h₃]


theorem xfit_patentAssertion (v : Int) (n : String) (x : PatentAssertion) : CFit v .patentAssertion X.patentAssertion n x True (x.XFits v) := by
  refine (cf_struct (aa_ok rfl <| af_elem <| af_elem <| af_elem <| af_elem <| af_nil) (rf_none rfl) (.inr rfl)
    (kf_pull_must (A := []) (B := [_]) (bf_plain_empty (xfit_string v _ _)) (kf_none (bf_nlist_empty) rfl <|
    kf_nil) rfl <|
    kf_plain (bf_plain_el (xfit_string v _ _)) rfl <|
    kf_elem (nn_opt (r := .patentRefs) rfl (lf_some (fun a _ => xfit_bomReference_text v _ a))) rfl <|
    kf_elem (pw_el (fun a _ => xfit_asserterChoice v _ a)) rfl <|
    kf_plain (so_opt (xfit_string v _ _)) rfl <|
    kf_nil)).congr ?_
  simp only [PatentAssertion.XFits, PatentAssertion.toP, and_true, true_and, and_assoc, implies_true, ne_eq, or_false, false_or]

theorem xfit_componentWith (v : Int) (n : String) (x : Component)
    (h_components : ∀ c ∈ x.components.elems, CFit v .component X.component "component" c True (c.XFits v))
    (h_pedigree : ∀ p ∈ x.pedigree, CFit v .pedigree (X.pedigree X.component) "pedigree" p True (XFitsPedigree v p)) :
    CFit v .component (X.componentWith X.component) n x True (x.XFits v) := by
  refine (cf_struct (aa_since_oe rfl (emt_string _) <| aa_since_oe rfl (emt_string _) <| aa_ok rfl <| af_elem <| af_elem <| af_elem <| af_elem <| af_elem <| af_elem <| af_elem <| af_elem <| af_elem <| af_elem <| af_elem <| af_elem <| af_elem <| af_elem <| af_elem <| af_elem <| af_elem <| af_elem <| af_elem <| af_elem <| af_elem <| af_elem <| af_elem <| af_elem <| af_elem <| af_elem <| af_elem <| af_elem <| af_elem <| af_elem <| af_elem <| af_elem <| af_skip <| af_nil) (rf_one rfl (wr_other rfl <| wr_other rfl <| wr_here)) (.inr rfl)
    (kf_elem (bf_since (pt_empty (fun a _ => xfit_organizationalEntity v _ a)) (pp_opt (fun a _ => xfit_organizationalEntity v _ a)) rfl) rfl <|
    kf_elem (bf_since (pt_empty (fun a _ => xfit_organizationalEntity v _ a)) (pp_opt (fun a _ => xfit_organizationalEntity v _ a)) rfl) rfl <|
    kf_pull (A := []) (B := [_]) (bf_nlist_empty) (kf_none (so_empty (xemp_string _) (xfit_string v _ _)) rfl <|
    kf_nil) rfl <|
    kf_elem (bf_since (bf_nlist_empty) (np_opt (r := .authors) rfl (fun h => by simp [h, PSlice.elems]) (lp_many (fun _ => rfl) (fun a _ => xfit_organizationalContact v _ a))) rfl) rfl <|
    kf_elem (bf_since_t (so_empty (xemp_string _) (xfit_string v _ _)) (so_opt (xfit_string v _ _)) rfl) rfl <|
    kf_plain (so_opt (xfit_string v _ _)) rfl <|
    kf_plain (so_opt (xfit_string v _ _)) rfl <|
    kf_plain (bf_plain_el (xfit_string v _ _)) rfl <|
    kf_pull (A := [_]) (B := [_, _, _, _, _, _, _, _, _, _, _, _, _, _, _, _, _, _, _, _, _, _, _]) (so_empty (xemp_string _) (xfit_string v _ _)) (kf_none (so_empty (xemp_string _) (xfit_string v _ _)) rfl <|
    kf_none (so_empty (xemp_string _) (xfit_string v _ _)) rfl <|
    kf_none (bf_nlist_empty) rfl <|
    kf_none (bf_slice_empty (xfit_licenses v _ _)) rfl <|
    kf_none (so_empty (xemp_string _) (xfit_string v _ _)) rfl <|
    kf_none (so_empty (xemp_string _) (xfit_string v _ _)) rfl <|
    kf_none (so_empty (xemp_string _) (xfit_string v _ _)) rfl <|
    kf_none (ls_empty xemp_string (fun a _ => xfit_string v _ a)) rfl <|
    kf_none (ls_empty xemp_string (fun a _ => xfit_string v _ a)) rfl <|
    kf_none (pt_empty (fun a _ => xfit_swid v _ a)) rfl <|
    kf_none (pt_empty (fun a _ => xfit_bool v _ a)) rfl <|
    kf_none (pt_empty h_pedigree) rfl <|
    kf_none (bf_nlist_empty) rfl <|
    kf_none (bf_nlist_empty) rfl <|
    kf_none (bf_nlist_empty) rfl <|
    kf_none (pw_empty (fun a _ => xfit_evidence v _ a)) rfl <|
    kf_none (pt_empty (fun a _ => xfit_releaseNotes v _ a)) rfl <|
    kf_none (pt_empty (fun a _ => xfit_mlModelCard v _ a)) rfl <|
    kf_none (lp_empty (fun _ => rfl) (fun a _ => xfit_componentData v _ a)) rfl <|
    kf_none (pt_empty (fun a _ => xfit_cryptoProperties v _ a)) rfl <|
    kf_none (bf_nlist_empty) rfl <|
    kf_none (pt_empty (fun a _ => xfit_bool v _ a)) rfl <|
    kf_none (bf_nlist_empty) rfl <|
    kf_nil) rfl <|
    kf_group (fs := [_, _]) (kf_switch (kf_switch (kf_single (kf_elem (so_el (xemp_string _) (xfit_string v _ _)) rfl <|
    kf_none (so_empty (xemp_string _) (xfit_string v _ _)) rfl <|
    kf_nil)) (kf_single (kf_plain (so_opt (xfit_string v _ _)) rfl <|
    kf_none (so_empty (xemp_string _) (xfit_string v _ _)) rfl <|
    kf_nil))) (kf_opt_or (kf_none (so_empty (xemp_string _) (xfit_string v _ _)) rfl <|
    kf_none (so_empty (xemp_string _) (xfit_string v _ _)) rfl <|
    kf_nil) (kf_choice (kf_single (kf_elem (so_el (xemp_string _) (xfit_string v _ _)) rfl <|
    kf_none (so_empty (xemp_string _) (xfit_string v _ _)) rfl <|
    kf_nil)) (kf_single (kf_none (so_empty (xemp_string _) (xfit_string v _ _)) rfl <|
    kf_elem (so_el (xemp_string _) (xfit_string v _ _)) rfl <|
    kf_nil))))) rfl rfl <|
    kf_plain (so_opt (xfit_string v _ _)) rfl <|
    kf_plain (so_opt (xfit_string v _ _)) rfl <|
    kf_plain (nt_opt (r := .toolTypeHashes) rfl (lt_many (fun a _ => xfit_hash v _ a))) rfl <|
    kf_elem (sp_opt (fun h => by rw [h]; exact xfitsLicenses_nil v) (xfit_licenses v _ _)) rfl <|
    kf_plain (so_opt (xfit_string v _ _)) rfl <|
    kf_pull (A := []) (B := [_, _, _, _, _, _, _, _, _, _, _, _, _, _, _, _, _]) (bf_nlist_empty) (kf_none (so_empty (xemp_string _) (xfit_string v _ _)) rfl <|
    kf_none (so_empty (xemp_string _) (xfit_string v _ _)) rfl <|
    kf_none (ls_empty xemp_string (fun a _ => xfit_string v _ a)) rfl <|
    kf_none (ls_empty xemp_string (fun a _ => xfit_string v _ a)) rfl <|
    kf_none (pt_empty (fun a _ => xfit_swid v _ a)) rfl <|
    kf_none (pt_empty (fun a _ => xfit_bool v _ a)) rfl <|
    kf_none (pt_empty h_pedigree) rfl <|
    kf_none (bf_nlist_empty) rfl <|
    kf_none (bf_nlist_empty) rfl <|
    kf_none (bf_nlist_empty) rfl <|
    kf_none (pw_empty (fun a _ => xfit_evidence v _ a)) rfl <|
    kf_none (pt_empty (fun a _ => xfit_releaseNotes v _ a)) rfl <|
    kf_none (pt_empty (fun a _ => xfit_mlModelCard v _ a)) rfl <|
    kf_none (lp_empty (fun _ => rfl) (fun a _ => xfit_componentData v _ a)) rfl <|
    kf_none (pt_empty (fun a _ => xfit_cryptoProperties v _ a)) rfl <|
    kf_none (bf_nlist_empty) rfl <|
    kf_none (pt_empty (fun a _ => xfit_bool v _ a)) rfl <|
    kf_nil) rfl <|
    kf_elem (bf_since (bf_nlist_empty) (np_opt (r := .servicePatentAssertions) rfl (fun h => by simp [h, PSlice.elems]) (lp_many (fun _ => rfl) (fun a _ => xfit_patentAssertion v _ a))) rfl) rfl <|
    kf_plain (so_opt (xfit_string v _ _)) rfl <|
    kf_plain (so_opt (xfit_string v _ _)) rfl <|
    kf_elem (bf_since_t (ls_empty xemp_string (fun a _ => xfit_string v _ a)) (lt_many (fun a _ => xfit_string v _ a)) rfl) rfl <|
    kf_elem (bf_since_t (ls_empty xemp_string (fun a _ => xfit_string v _ a)) (lt_many (fun a _ => xfit_string v _ a)) rfl) rfl <|
    kf_elem (bf_since (pt_empty (fun a _ => xfit_swid v _ a)) (pp_opt (fun a _ => xfit_swid v _ a)) rfl) rfl <|
    kf_elem (bf_switch_old (pt_el (fun a _ => xfit_bool v _ a)) (pt_opt (fun a _ => xfit_bool v _ a))) rfl <|
    kf_elem (bf_since (pt_empty h_pedigree) (pp_opt h_pedigree) rfl) rfl <|
    kf_elem (bf_since (bf_nlist_empty) (np_opt (r := .externalReferences) rfl (fun h => by simp [h, PSlice.elems]) (lp_many (fun _ => rfl) (fun a _ => xfit_externalReference v _ a))) rfl) rfl <|
    kf_elem (bf_since_t (bf_nlist_empty) (nt_opt (r := .properties) rfl (lt_many (fun a _ => xfit_property v _ a))) rfl) rfl <|
    kf_elem (np_opt (r := .components) rfl (fun h => by simp [h, PSlice.elems]) (lp_many (fun _ => rfl) h_components)) rfl <|
    kf_elem (bf_since (pw_empty (fun a _ => xfit_evidence v _ a)) (pw_opt (evidence_unwritten v) (fun a _ => xfit_evidence v _ a)) rfl) rfl <|
    kf_elem (bf_since_t (pt_empty (fun a _ => xfit_releaseNotes v _ a)) (pt_opt (fun a _ => xfit_releaseNotes v _ a)) rfl) rfl <|
    kf_elem (bf_since (pt_empty (fun a _ => xfit_mlModelCard v _ a)) (pp_opt (fun a _ => xfit_mlModelCard v _ a)) rfl) rfl <|
    kf_elem (bf_switch (bf_since (lp_empty (fun _ => rfl) (fun a _ => xfit_componentData v _ a)) (lp_opt (fun _ => rfl) (fun a _ => xfit_componentData v _ a)) rfl) (lp_many (fun _ => rfl) (fun a _ => xfit_componentData v _ a))) rfl <|
    kf_elem (bf_since (pt_empty (fun a _ => xfit_cryptoProperties v _ a)) (pp_opt (fun a _ => xfit_cryptoProperties v _ a)) rfl) rfl <|
    kf_elem (bf_since_t (bf_nlist_empty) (nt_opt (r := .tags) rfl (lt_many (fun a _ => xfit_string v _ a))) rfl) rfl <|
    kf_none (pt_empty (fun a _ => xfit_bool v _ a)) rfl <|
    kf_nil)).congr ?_
  cases x
  simp only [Component.XFits, Component.toP, xfitsComponents_iff, xfitsPedigreeOpt_iff, and_true, true_and, and_assoc,
    ne_eq, or_false, false_or]

theorem xfit_component (v : Int) (n : String) (x : Component) :
    CFit v .component X.component n x True (x.XFits v) := by
  suffices H : ∀ k n (x : Component), x.height ≤ k → CFit v .component X.component n x True (x.XFits v) from
    H x.height n x (Nat.le_refl _)
  intro k
  induction k with
  | zero => intro n x h; rw [Component.height_eq] at h; omega
  | succ k ih =>
    intro n x h o ho
    rw [xcomponent_enc] at ho
    revert o
    rw [Component.height_eq] at h
    have hm : max (heightComponents x.components) (heightPedigreeOpt x.pedigree) ≤ k := by omega
    rw [Nat.max_le] at hm
    have hl : ∀ p : PSlice Component, heightComponents p ≤ k →
        ∀ c ∈ p.elems, CFit v .component X.component "component" c True (c.XFits v) := by
      intro p hp
      rw [heightComponents_le] at hp
      exact fun c hc => ih _ c (hp c hc)
    refine xfit_componentWith v n x (hl _ hm.1) ?_
    intro p hp
    have hp : x.pedigree = some p := hp
    have hm := hm.2
    simp only [hp, heightPedigreeOpt, heightPedigree_eq, Nat.max_le] at hm
    exact xfit_pedigreeWith v _ p (hl _ hm.1) (hl _ hm.2.1) (hl _ hm.2.2)


theorem attrUnlessEmpty_fit {v : Int} {n s : String} : X.attrUnlessEmpty n s = [] ∨ ∃ t, X.attrUnlessEmpty n s = [(n, t)] := by
  unfold X.attrUnlessEmpty; split
  · exact .inr ⟨_, rfl⟩
  · exact .inl rfl

theorem bf_urls (v : Int) (n : String) (us : PSlice String) :
    BFit v (.opt (.el n .issueTypeReferences)) (n, some (X.urlsElem n us)) True := by
  intro ks hk
  simp only [Option.some.injEq] at hk
  subst hk
  rw [matches_opt_el]
  unfold X.urlsElem
  split
  · simp
  · rename_i us _
    simp only [List.mem_singleton, forall_eq, Xml.isElem, decide_true, true_and, List.length_singleton, Nat.le_refl,
      iff_true]
    rw [xvalid_bare rfl]
    · show (Content.many (.el "url" .text)).Matches v (XValid v) _
      rw [Content.matches_many_el]
      intro x hx
      obtain ⟨u, _, rfl⟩ := List.mem_map.mp hx
      refine ⟨by simp [Xml.isElem], ?_⟩
      rw [xvalid_iff]
      exact ⟨⟨fun a ha => (by cases ha), fun d hd => (by cases hd)⟩, .inl rfl, by
        rw [elements_textKids]; exact .empty⟩
    · intro x hx
      obtain ⟨u, _, rfl⟩ := List.mem_map.mp hx
      exact ⟨"url", by simp [Xml.isElem]⟩

theorem bf_classification (v : Int) (x : DataClassification) :
    BFit v (.opt (.el "classification" .dataClassification)) ("classification", some (
      if x.classification ≠ "" ∨ x.flow ≠ "" then
        [.elem "classification" (X.attrUnlessEmpty "flow" x.flow) (textKids (sanitize x.classification))]
      else [])) (x.flow = "" → x.classification = "") := by
  intro ks hk
  simp only [Option.some.injEq] at hk
  subst hk
  rw [matches_opt_el]
  split
  · rename_i h
    simp only [List.mem_singleton, forall_eq, Xml.isElem, decide_true, true_and, List.length_singleton, Nat.le_refl]
    rw [xvalid_iff]
    by_cases hf : x.flow = ""
    · have hc : x.classification ≠ "" := h.resolve_right (by simp [hf])
      simp only [hf, hc, true_implies, iff_false, X.attrUnlessEmpty, ne_eq, not_true_eq_false, if_false]
      rintro ⟨⟨_, h⟩, _⟩
      obtain ⟨a, ha, _⟩ := h { name := "flow", required := true } (by simp [XPlace.attrs]) rfl (by simp [XAttr.In])
      cases ha
    · simp only [hf, false_implies, iff_true, X.attrUnlessEmpty, ne_eq, not_false_eq_true, if_true, List.mem_singleton,
        forall_eq]
      refine ⟨⟨by simp [XPlace.attrs, XAttr.In], by simp [XPlace.attrs]⟩, .inl rfl, ?_⟩
      rw [elements_textKids]; exact .empty
  · rename_i h
    simp only [not_or, ne_eq, not_not] at h
    simp [h]

theorem xfit_dataClassification (v : Int) (n : String) (x : DataClassification) (hn : n = "dataflow" := by rfl) :
    CFit v .dataflow X.dataClassification n x True (x.XFits v) := by
  subst hn
  intro o ho
  simp only [X.dataClassification] at ho
  split at ho
  · cases ho
  · rename_i gs hgs
    cases ho
    refine ⟨by simp, ?_⟩
    simp only [Option.mem_def, Option.some.injEq, forall_eq', Xml.isElem, decide_true, true_and]
    have hk := (kf_elem (bf_classification v x) rfl <|
      kf_elem (pp_opt (n := "governance") (o := x.governance) fun a _ => xfit_dataGovernance v _ a) rfl <|
      kf_plain (bf_urls v "source" x.source) rfl <| kf_plain (bf_urls v "destination" x.destination) rfl <| kf_nil) _
      (by simp only [cat, hgs, Option.map_some, List.append_nil]; rfl)
    rw [xvalid_iff]
    have he : ∀ ks : List Xml, (∀ y ∈ ks, ∃ n ∈ ["classification", "governance", "source", "destination"],
        y.isElem n = true) → Xml.elements ks = ks := fun ks h =>
      elements_of fun y hy => let ⟨n, _, h⟩ := h y hy; ⟨n, h⟩
    have he := he _ hk.1
    simp only [List.append_assoc] at he hk ⊢
    rw [he]
    have hc := hk.2
    simp only [and_true] at hc
    refine (Iff.trans ⟨fun h => h.2.2, fun h => ⟨⟨?_, by simp [XPlace.attrs]⟩, .inr ?_, h⟩⟩ hc)
    · intro a ha
      simp only [X.attrUnlessEmpty, List.mem_append] at ha
      rcases ha with ha | ha <;> split at ha <;> simp_all [XPlace.attrs, XAttr.In]
    · intro s hs
      obtain ⟨m, _, hm⟩ := hk.1 _ hs
      simp [Xml.isElem] at hm


theorem xfitsServiceList_iff {v : Int} : ∀ {xs : List Service}, XFitsServiceList v xs ↔ ∀ y ∈ xs, y.XFits v
  | [] => by simp [XFitsServiceList]
  | x :: xs => by simp [XFitsServiceList, xfitsServiceList_iff]

theorem xfitsServices_iff {v : Int} {p : PSlice Service} : XFitsServices v p ↔ ∀ y ∈ p.elems, y.XFits v := by
  cases p <;> simp [XFitsServices, PSlice.elems, xfitsServiceList_iff]

theorem xfit_serviceWith (v : Int) (n : String) (x : Service)
    (h_services : ∀ c ∈ x.services.elems, CFit v .service X.service "service" c True (c.XFits v)) :
    CFit v .service (X.serviceWith X.service) n x True (x.XFits v) := by
  refine (cf_struct (aa_ok rfl <| af_elem <| af_elem <| af_elem <| af_elem <| af_elem <| af_elem <| af_elem <| af_elem <| af_elem <| af_elem <| af_elem <| af_elem <| af_elem <| af_elem <| af_elem <| af_elem <| af_elem <| af_skip <| af_nil) (rf_none rfl) (.inr rfl)
    (kf_elem (pp_opt (fun a _ => xfit_organizationalEntity v _ a)) rfl <|
    kf_plain (so_opt (xfit_string v _ _)) rfl <|
    kf_plain (bf_plain_el (xfit_string v _ _)) rfl <|
    kf_plain (so_opt (xfit_string v _ _)) rfl <|
    kf_plain (so_opt (xfit_string v _ _)) rfl <|
    kf_plain (nt_opt (r := .serviceEndpoints) rfl (lt_many (fun a _ => xfit_string v _ a))) rfl <|
    kf_plain (pt_opt (fun a _ => xfit_bool v _ a)) rfl <|
    kf_plain (pt_opt (fun a _ => xfit_bool v _ a)) rfl <|
    kf_pull (A := []) (B := [_, _, _, _, _, _, _]) (so_empty (xemp_string _) (xfit_string v _ _)) (kf_none (bf_nlist_empty) rfl <|
    kf_none (bf_slice_empty (xfit_licenses v _ _)) rfl <|
    kf_none (bf_nlist_empty) rfl <|
    kf_none (bf_nlist_empty) rfl <|
    kf_none (bf_nlist_empty) rfl <|
    kf_none (pt_empty (fun a _ => xfit_releaseNotes v _ a)) rfl <|
    kf_none (bf_nlist_empty) rfl <|
    kf_nil) rfl <|
    kf_elem (bf_since_t (so_empty (xemp_string _) (xfit_string v _ _)) (so_opt (xfit_string v _ _)) rfl) rfl <|
    kf_elem (np_opt (r := .serviceData) rfl (fun h => by simp [h, PSlice.elems]) (bf_switch_since (bf_other (lp_empty (fun _ => rfl) (fun a _ => xfit_dataClassification v _ a)) rfl) (bf_choice_right (bf_other (lp_empty (fun _ => rfl) (fun a _ => xfit_dataClassification v _ a)) rfl) (lp_many (fun _ => rfl) (fun a _ => xfit_dataClassification v _ a)) (fun h => by simp [h])) (fun h => by simp [h]))) rfl <|
    kf_elem (sp_opt (fun h => by rw [h]; exact xfitsLicenses_nil v) (xfit_licenses v _ _)) rfl <|
    kf_pull (A := []) (B := [_, _, _, _, _]) (bf_nlist_empty) (kf_none (bf_nlist_empty) rfl <|
    kf_none (bf_nlist_empty) rfl <|
    kf_none (bf_nlist_empty) rfl <|
    kf_none (pt_empty (fun a _ => xfit_releaseNotes v _ a)) rfl <|
    kf_none (bf_nlist_empty) rfl <|
    kf_nil) rfl <|
    kf_elem (bf_since (bf_nlist_empty) (np_opt (r := .servicePatentAssertions) rfl (fun h => by simp [h, PSlice.elems]) (lp_many (fun _ => rfl) (fun a _ => xfit_patentAssertion v _ a))) rfl) rfl <|
    kf_elem (np_opt (r := .externalReferences) rfl (fun h => by simp [h, PSlice.elems]) (lp_many (fun _ => rfl) (fun a _ => xfit_externalReference v _ a))) rfl <|
    kf_elem (bf_since_t (bf_nlist_empty) (nt_opt (r := .properties) rfl (lt_many (fun a _ => xfit_property v _ a))) rfl) rfl <|
    kf_elem (np_opt (r := .services) rfl (fun h => by simp [h, PSlice.elems]) (lp_many (fun _ => rfl) h_services)) rfl <|
    kf_elem (bf_since_t (pt_empty (fun a _ => xfit_releaseNotes v _ a)) (pt_opt (fun a _ => xfit_releaseNotes v _ a)) rfl) rfl <|
    kf_elem (bf_since_t (bf_nlist_empty) (nt_opt (r := .tags) rfl (lt_many (fun a _ => xfit_string v _ a))) rfl) rfl <|
    kf_nil)).congr ?_
  cases x
  simp only [Service.XFits, Service.toP, xfitsServices_iff, and_true, true_and, and_assoc, ne_eq, or_false, false_or]

theorem xfit_service (v : Int) (n : String) (x : Service) : CFit v .service X.service n x True (x.XFits v) := by
  suffices H : ∀ k n (x : Service), x.height ≤ k → CFit v .service X.service n x True (x.XFits v) from
    H x.height n x (Nat.le_refl _)
  intro k
  induction k with
  | zero => intro n x h; rw [Service.height_eq] at h; omega
  | succ k ih =>
    intro n x h o ho
    rw [xservice_enc] at ho
    revert o
    rw [Service.height_eq] at h
    have hm : heightServices x.services ≤ k := by omega
    rw [heightServices_le] at hm
    exact xfit_serviceWith v n x fun c hc => ih _ c (hm c hc)


theorem xfit_annotator (v : Int) (n : String) (x : Annotator) : CFit v .annotatorChoice X.annotator n x True (x.XFits v) := by
  refine (cf_struct (af_elem <| af_elem <| af_elem <| af_elem <| af_nil) (rf_none rfl) (.inr rfl)
    (kf_choice (kf_single (kf_elem (pp_opt (fun a _ => xfit_organizationalEntity v _ a)) rfl <|
    kf_none (pt_empty (fun a _ => xfit_organizationalContact v _ a)) rfl <|
    kf_none (pt_empty (fun a _ => xfit_component v _ a)) rfl <|
    kf_none (pt_empty (fun a _ => xfit_service v _ a)) rfl <|
    kf_nil)) (kf_choice (kf_single (kf_none (pt_empty (fun a _ => xfit_organizationalEntity v _ a)) rfl <|
    kf_elem (pp_opt (fun a _ => xfit_organizationalContact v _ a)) rfl <|
    kf_none (pt_empty (fun a _ => xfit_component v _ a)) rfl <|
    kf_none (pt_empty (fun a _ => xfit_service v _ a)) rfl <|
    kf_nil)) (kf_choice (kf_single (kf_none (pt_empty (fun a _ => xfit_organizationalEntity v _ a)) rfl <|
    kf_none (pt_empty (fun a _ => xfit_organizationalContact v _ a)) rfl <|
    kf_elem (pp_opt (fun a _ => xfit_component v _ a)) rfl <|
    kf_none (pt_empty (fun a _ => xfit_service v _ a)) rfl <|
    kf_nil)) (kf_single (kf_none (pt_empty (fun a _ => xfit_organizationalEntity v _ a)) rfl <|
    kf_none (pt_empty (fun a _ => xfit_organizationalContact v _ a)) rfl <|
    kf_none (pt_empty (fun a _ => xfit_component v _ a)) rfl <|
    kf_elem (pp_opt (fun a _ => xfit_service v _ a)) rfl <|
    kf_nil)))))).congr ?_
  simp only [Annotator.XFits, Annotator.toP, and_true, true_and, and_assoc, implies_true, ne_eq, or_false, false_or]

theorem xfit_annotation (v : Int) (n : String) (x : Annotation) : CFit v .annotation X.annotation n x True (x.XFits v) := by
  refine (cf_struct (aa_ok rfl <| af_elem <| af_elem <| af_elem <| af_elem <| af_skip <| af_nil) (rf_none rfl) (.inr rfl)
    (kf_plain (nt_opt (r := .annotationTypeSubjects) rfl (lt_many (fun a _ => xfit_bomReference v _ a))) rfl <|
    kf_elem (pp_el (fun a _ => xfit_annotator v _ a)) rfl <|
    kf_elem (so_el (xemp_string _) (xfit_string v _ _)) rfl <|
    kf_elem (so_el (xemp_string _) (xfit_string v _ _)) rfl <|
    kf_nil)).congr ?_
  simp only [Annotation.XFits, Annotation.toP, and_true, true_and, and_assoc, implies_true, ne_eq, or_false, false_or]

theorem xfit_assessor (v : Int) (n : String) (x : Assessor) : CFit v .assessor X.assessor n x True (x.XFits v) := by
  refine (cf_struct (aa_ok rfl <| af_elem <| af_elem <| af_nil) (rf_none rfl) (.inr rfl)
    (kf_plain (so_opt (xfit_bool v _ _)) rfl <|
    kf_elem (pp_opt (fun a _ => xfit_organizationalEntity v _ a)) rfl <|
    kf_nil)).congr ?_
  simp only [Assessor.XFits, Assessor.toP, and_true, true_and, and_assoc, implies_true, ne_eq, or_false, false_or]

theorem xfit_attestationConformance (v : Int) (n : String) (x : AttestationConformance) : CFit v .conformance X.attestationConformance n x True (x.XFits v) := by
  refine (cf_struct (af_elem <| af_elem <| af_elem <| af_nil) (rf_none rfl) (.inr rfl)
    (kf_elem (pt_el (fun a _ => xfit_f64 v _ a)) rfl <|
    kf_plain (so_opt (xfit_string v _ _)) rfl <|
    kf_elem (np_opt (r := .claimMitigationStrategies) rfl (fun h => by simp [h, PSlice.elems]) (lf_many xemp_bomReference (fun a _ => xfit_bomReference_text v _ a))) rfl <|
    kf_nil)).congr ?_
  simp only [AttestationConformance.XFits, AttestationConformance.toP, and_true, true_and, and_assoc, implies_true, ne_eq, or_false, false_or]

theorem xfit_attestationConfidence (v : Int) (n : String) (x : AttestationConfidence) : CFit v .confidence X.attestationConfidence n x True (x.XFits v) := by
  refine (cf_struct (af_elem <| af_elem <| af_nil) (rf_none rfl) (.inr rfl)
    (kf_elem (pt_el (fun a _ => xfit_f64 v _ a)) rfl <|
    kf_plain (so_opt (xfit_string v _ _)) rfl <|
    kf_nil)).congr ?_
  simp only [AttestationConfidence.XFits, AttestationConfidence.toP, and_true, true_and, and_assoc, implies_true, ne_eq, or_false, false_or]

theorem xfit_attestationMap (v : Int) (n : String) (x : AttestationMap) : CFit v .attestationMap X.attestationMap n x True (x.XFits v) := by
  refine (cf_struct (af_elem <| af_elem <| af_elem <| af_elem <| af_elem <| af_nil) (rf_none rfl) (.inr rfl)
    (kf_plain (so_opt (xfit_string v _ _)) rfl <|
    kf_elem (np_opt (r := .declarationsAttestationsAttestationMapClaims) rfl (fun h => by simp [h, PSlice.elems]) (lf_many xemp_bomReference (fun a _ => xfit_bomReference_text v _ a))) rfl <|
    kf_elem (np_opt (r := .counterClaims) rfl (fun h => by simp [h, PSlice.elems]) (lf_many xemp_bomReference (fun a _ => xfit_bomReference_text v _ a))) rfl <|
    kf_elem (pp_opt (fun a _ => xfit_attestationConformance v _ a)) rfl <|
    kf_elem (pp_opt (fun a _ => xfit_attestationConfidence v _ a)) rfl <|
    kf_nil)).congr ?_
  simp only [AttestationMap.XFits, AttestationMap.toP, and_true, true_and, and_assoc, implies_true, ne_eq, or_false, false_or]

theorem xfit_attestation (v : Int) (n : String) (x : Attestation) : CFit v .attestation X.attestation n x True (x.XFits v) := by
  refine (cf_struct (af_elem <| af_elem <| af_elem <| af_skip <| af_nil) (rf_none rfl) (.inr rfl)
    (kf_plain (so_opt (xfit_string v _ _)) rfl <|
    kf_elem (fo_opt (xemp_bomReference _) (xfit_bomReference_text v _ _)) rfl <|
    kf_elem (lp_many (fun _ => rfl) (fun a _ => xfit_attestationMap v _ a)) rfl <|
    kf_nil)).congr ?_
  simp only [Attestation.XFits, Attestation.toP, and_true, true_and, and_assoc, implies_true, ne_eq, or_false, false_or]

theorem xfit_composition (v : Int) (n : String) (x : Composition) : CFit v .composition X.composition n x True (x.XFits v) := by
  refine (cf_struct (aa_since_oe rfl (emt_string _) <| af_elem <| af_elem <| af_elem <| af_elem <| af_skip <| af_nil) (rf_none rfl) (.inr rfl)
    (kf_many_must "aggregate" rfl (am_here (v := v) (plain_one (xfit_string v _ _)) (kf_none (bf_nlist_empty) rfl <|
    kf_none (bf_nlist_empty) rfl <|
    kf_none (bf_nlist_empty) rfl <|
    kf_nil) rfl) (kf_none (bf_plain_empty (xfit_string v _ _)) rfl <|
    kf_none (bf_nlist_empty) rfl <|
    kf_none (bf_nlist_empty) rfl <|
    kf_none (bf_nlist_empty) rfl <|
    kf_nil) (by simp) (kf_plain (bf_plain_el (xfit_string v _ _)) rfl <|
    kf_plain (nt_opt (r := .assemblies) rfl (lt_many (fun a _ => xfit_bomReference v _ a))) rfl <|
    kf_plain (nt_opt (r := .compositionDependencies) rfl (lt_many (fun a _ => xfit_bomReference v _ a))) rfl <|
    kf_elem (bf_since_t (bf_nlist_empty) (nt_opt (r := .compositionVulnerabilities) rfl (lt_many (fun a _ => xfit_bomReference v _ a))) rfl) rfl <|
    kf_nil))).congr ?_
  simp only [Composition.XFits, Composition.toP, and_true, true_and, and_assoc, implies_true, ne_eq, or_false, false_or]

theorem xfit_claim (v : Int) (n : String) (x : Claim) : CFit v .claim X.claim n x True (x.XFits v) := by
  refine (cf_struct (aa_ok rfl <| af_elem <| af_elem <| af_elem <| af_elem <| af_elem <| af_elem <| af_elem <| af_skip <| af_nil) (rf_none rfl) (.inr rfl)
    (kf_elem (fo_opt (xemp_bomReference _) (xfit_bomReference_text v _ _)) rfl <|
    kf_plain (so_opt (xfit_string v _ _)) rfl <|
    kf_elem (np_opt (r := .claimMitigationStrategies) rfl (fun h => by simp [h, PSlice.elems]) (lf_many xemp_bomReference (fun a _ => xfit_bomReference_text v _ a))) rfl <|
    kf_plain (so_opt (xfit_string v _ _)) rfl <|
    kf_elem (lf_many xemp_bomReference (fun a _ => xfit_bomReference_text v _ a)) rfl <|
    kf_elem (lf_many xemp_bomReference (fun a _ => xfit_bomReference_text v _ a)) rfl <|
    kf_elem (np_opt (r := .externalReferences) rfl (fun h => by simp [h, PSlice.elems]) (lp_many (fun _ => rfl) (fun a _ => xfit_externalReference v _ a))) rfl <|
    kf_nil)).congr ?_
  simp only [Claim.XFits, Claim.toP, and_true, true_and, and_assoc, implies_true, ne_eq, or_false, false_or]

theorem xfit_evidenceDataContents (v : Int) (n : String) (x : EvidenceDataContents) : CFit v .dataContents X.evidenceDataContents n x True True := by
  refine (cf_struct (af_elem <| af_elem <| af_nil) (rf_none rfl) (.inr rfl)
    (kf_plain (pt_opt (fun a _ => xfit_attachedText v _ a)) rfl <|
    kf_plain (so_opt (xfit_string v _ _)) rfl <|
    kf_nil)).congr ?_
  simp only [EvidenceDataContents.toP, and_true, true_and, and_assoc, implies_true, ne_eq, or_false, false_or]

theorem xfit_evidenceData (v : Int) (n : String) (x : EvidenceData) : CFit v .data X.evidenceData n x True (x.XFits v) := by
  refine (cf_struct (af_elem <| af_elem <| af_elem <| af_elem <| af_elem <| af_nil) (rf_none rfl) (.inr rfl)
    (kf_plain (so_opt (xfit_string v _ _)) rfl <|
    kf_plain (pt_opt (fun a _ => xfit_evidenceDataContents v _ a)) rfl <|
    kf_none (bf_nptr_empty) rfl <|
    kf_gap rfl <|
    kf_plain (lt_many (fun a _ => xfit_string v _ a)) rfl <|
    kf_elem (pp_opt (fun a _ => xfit_dataGovernance v _ a)) rfl <|
    kf_nil)).congr ?_
  simp only [EvidenceData.XFits, EvidenceData.toP, and_true, true_and, and_assoc, implies_true, ne_eq, or_false, false_or]

theorem xfit_declarationEvidence (v : Int) (n : String) (x : DeclarationEvidence) : CFit v .declarationsEvidenceEvidence X.declarationEvidence n x True (x.XFits v) := by
  refine (cf_struct (aa_ok rfl <| af_elem <| af_elem <| af_elem <| af_elem <| af_elem <| af_elem <| af_elem <| af_skip <| af_nil) (rf_none rfl) (.inr rfl)
    (kf_plain (so_opt (xfit_string v _ _)) rfl <|
    kf_plain (so_opt (xfit_string v _ _)) rfl <|
    kf_elem (lp_many (fun _ => rfl) (fun a _ => xfit_evidenceData v _ a)) rfl <|
    kf_plain (so_opt (xfit_string v _ _)) rfl <|
    kf_plain (so_opt (xfit_string v _ _)) rfl <|
    kf_elem (pp_opt (fun a _ => xfit_organizationalContact v _ a)) rfl <|
    kf_elem (pp_opt (fun a _ => xfit_organizationalContact v _ a)) rfl <|
    kf_nil)).congr ?_
  simp only [DeclarationEvidence.XFits, DeclarationEvidence.toP, and_true, true_and, and_assoc, implies_true, ne_eq, or_false, false_or]

theorem xfit_targets (v : Int) (n : String) (x : Targets) : CFit v .targets X.targets n x True (x.XFits v) := by
  refine (cf_struct (af_elem <| af_elem <| af_elem <| af_nil) (rf_none rfl) (.inr rfl)
    (kf_elem (np_opt (r := .targetsOrganizations) rfl (fun h => by simp [h, PSlice.elems]) (lp_many (fun _ => rfl) (fun a _ => xfit_organizationalEntity v _ a))) rfl <|
    kf_elem (np_opt (r := .components) rfl (fun h => by simp [h, PSlice.elems]) (lp_many (fun _ => rfl) (fun a _ => xfit_component v _ a))) rfl <|
    kf_elem (np_opt (r := .services) rfl (fun h => by simp [h, PSlice.elems]) (lp_many (fun _ => rfl) (fun a _ => xfit_service v _ a))) rfl <|
    kf_nil)).congr ?_
  simp only [Targets.XFits, Targets.toP, and_true, true_and, and_assoc, implies_true, ne_eq, or_false, false_or]

theorem xfit_signatory (v : Int) (n : String) (x : Signatory) : CFit v .signatory X.signatory n x True (x.XFits v) := by
  refine (cf_struct (af_elem <| af_elem <| af_skip <| af_elem <| af_elem <| af_nil) (rf_none rfl) (.inr rfl)
    (kf_plain (so_opt (xfit_string v _ _)) rfl <|
    kf_plain (so_opt (xfit_string v _ _)) rfl <|
    kf_elem (pp_opt (fun a _ => xfit_organizationalEntity v _ a)) rfl <|
    kf_elem (pp_opt (fun a _ => xfit_externalReference v _ a)) rfl <|
    kf_nil)).congr ?_
  simp only [Signatory.XFits, Signatory.toP, and_true, true_and, and_assoc, implies_true, ne_eq, or_false, false_or]

theorem xfit_affirmation (v : Int) (n : String) (x : Affirmation) : CFit v .affirmation X.affirmation n x True (x.XFits v) := by
  refine (cf_struct (af_elem <| af_elem <| af_skip <| af_nil) (rf_none rfl) (.inr rfl)
    (kf_plain (so_opt (xfit_string v _ _)) rfl <|
    kf_elem (np_opt (r := .signatories) rfl (fun h => by simp [h, PSlice.elems]) (lp_many (fun _ => rfl) (fun a _ => xfit_signatory v _ a))) rfl <|
    kf_nil)).congr ?_
  simp only [Affirmation.XFits, Affirmation.toP, and_true, true_and, and_assoc, implies_true, ne_eq, or_false, false_or]

theorem xfit_declarations (v : Int) (n : String) (x : Declarations) : CFit v .declarations X.declarations n x True (x.XFits v) := by
  refine (cf_struct (af_elem <| af_elem <| af_elem <| af_elem <| af_elem <| af_elem <| af_skip <| af_nil) (rf_none rfl) (.inr rfl)
    (kf_elem (np_opt (r := .assessors) rfl (fun h => by simp [h, PSlice.elems]) (lp_many (fun _ => rfl) (fun a _ => xfit_assessor v _ a))) rfl <|
    kf_elem (np_opt (r := .attestations) rfl (fun h => by simp [h, PSlice.elems]) (lp_many (fun _ => rfl) (fun a _ => xfit_attestation v _ a))) rfl <|
    kf_elem (np_opt (r := .claims) rfl (fun h => by simp [h, PSlice.elems]) (lp_many (fun _ => rfl) (fun a _ => xfit_claim v _ a))) rfl <|
    kf_elem (np_opt (r := .evidence) rfl (fun h => by simp [h, PSlice.elems]) (lp_many (fun _ => rfl) (fun a _ => xfit_declarationEvidence v _ a))) rfl <|
    kf_elem (pp_opt (fun a _ => xfit_targets v _ a)) rfl <|
    kf_elem (pp_opt (fun a _ => xfit_affirmation v _ a)) rfl <|
    kf_nil)).congr ?_
  simp only [Declarations.XFits, Declarations.toP, and_true, true_and, and_assoc, implies_true, ne_eq, or_false, false_or]

theorem xfit_priorityApplication (v : Int) (n : String) (x : PriorityApplication) : CFit v .priorityApplication X.priorityApplication n x True True := by
  refine (cf_struct (af_elem <| af_elem <| af_elem <| af_nil) (rf_none rfl) (.inr rfl)
    (kf_plain (bf_plain_el (xfit_string v _ _)) rfl <|
    kf_plain (bf_plain_el (xfit_string v _ _)) rfl <|
    kf_plain (bf_plain_el (xfit_string v _ _)) rfl <|
    kf_nil)).congr ?_
  simp only [PriorityApplication.toP, and_true, true_and, and_assoc, implies_true, ne_eq, or_false, false_or]

theorem xfit_patent (v : Int) (n : String) (x : Patent) : CFit v .patent X.patent n x True (x.XFits v) := by
  refine (cf_struct (aa_ok rfl <| af_elem <| af_elem <| af_elem <| af_elem <| af_elem <| af_elem <| af_elem <| af_elem <| af_elem <| af_elem <| af_elem <| af_elem <| af_elem <| af_nil) (rf_none rfl) (.inr rfl)
    (kf_plain (bf_plain_el (xfit_string v _ _)) rfl <|
    kf_plain (so_opt (xfit_string v _ _)) rfl <|
    kf_plain (bf_plain_el (xfit_string v _ _)) rfl <|
    kf_plain (pt_opt (fun a _ => xfit_priorityApplication v _ a)) rfl <|
    kf_plain (so_opt (xfit_string v _ _)) rfl <|
    kf_plain (so_opt (xfit_string v _ _)) rfl <|
    kf_plain (so_opt (xfit_string v _ _)) rfl <|
    kf_plain (so_opt (xfit_string v _ _)) rfl <|
    kf_plain (so_opt (xfit_string v _ _)) rfl <|
    kf_plain (so_opt (xfit_string v _ _)) rfl <|
    kf_plain (bf_plain_el (xfit_string v _ _)) rfl <|
    kf_elem (lp_many (fun _ => rfl) (fun a _ => xfit_organizationalEntityOrContact v _ a)) rfl <|
    kf_elem (np_opt (r := .externalReferences) rfl (fun h => by simp [h, PSlice.elems]) (lp_many (fun _ => rfl) (fun a _ => xfit_externalReference v _ a))) rfl <|
    kf_nil)).congr ?_
  simp only [Patent.XFits, Patent.toP, and_true, true_and, and_assoc, implies_true, ne_eq, or_false, false_or]

theorem xfit_patentFamily (v : Int) (n : String) (x : PatentFamily) : CFit v .patentFamily X.patentFamily n x True (x.XFits v) := by
  refine (cf_struct (aa_ok rfl <| af_elem <| af_elem <| af_elem <| af_elem <| af_nil) (rf_none rfl) (.inr rfl)
    (kf_plain (bf_plain_el (xfit_string v _ _)) rfl <|
    kf_plain (pt_opt (fun a _ => xfit_priorityApplication v _ a)) rfl <|
    kf_elem (nn_opt (r := .patentFamilyTypeMembers) rfl (lf_some (fun a _ => xfit_bomReference_text v _ a))) rfl <|
    kf_elem (np_opt (r := .externalReferences) rfl (fun h => by simp [h, PSlice.elems]) (lp_many (fun _ => rfl) (fun a _ => xfit_externalReference v _ a))) rfl <|
    kf_nil)).congr ?_
  simp only [PatentFamily.XFits, PatentFamily.toP, and_true, true_and, and_assoc, implies_true, ne_eq, or_false, false_or]

theorem xfit_standardRequirement (v : Int) (n : String) (x : StandardRequirement) : CFit v .requirement X.standardRequirement n x True (x.XFits v) := by
  refine (cf_struct (aa_ok rfl <| af_elem <| af_elem <| af_elem <| af_elem <| af_elem <| af_elem <| af_elem <| af_elem <| af_nil) (rf_none rfl) (.inr rfl)
    (kf_plain (so_opt (xfit_string v _ _)) rfl <|
    kf_plain (so_opt (xfit_string v _ _)) rfl <|
    kf_plain (so_opt (xfit_string v _ _)) rfl <|
    kf_elem (np_opt (r := .requirementDescriptions) rfl (fun h => by simp [h, PSlice.elems]) (bf_switch_old (ls_opt xemp_string (fun a _ => xfit_string v _ a)) (lt_many (fun a _ => xfit_string v _ a)))) rfl <|
    kf_plain (lt_many (fun a _ => xfit_string v _ a)) rfl <|
    kf_plain (so_opt (xfit_string v _ _)) rfl <|
    kf_plain (nt_opt (r := .properties) rfl (lt_many (fun a _ => xfit_property v _ a))) rfl <|
    kf_elem (np_opt (r := .externalReferences) rfl (fun h => by simp [h, PSlice.elems]) (lp_many (fun _ => rfl) (fun a _ => xfit_externalReference v _ a))) rfl <|
    kf_nil)).congr ?_
  simp only [StandardRequirement.XFits, StandardRequirement.toP, and_true, true_and, and_assoc, implies_true, ne_eq, or_false, false_or]

theorem xfit_standardLevel (v : Int) (n : String) (x : StandardLevel) : CFit v .level X.standardLevel n x True True := by
  refine (cf_struct (aa_ok rfl <| af_elem <| af_elem <| af_elem <| af_elem <| af_nil) (rf_none rfl) (.inr rfl)
    (kf_plain (so_opt (xfit_string v _ _)) rfl <|
    kf_plain (so_opt (xfit_string v _ _)) rfl <|
    kf_plain (so_opt (xfit_string v _ _)) rfl <|
    kf_plain (nt_opt (r := .levelRequirements) rfl (lt_many (fun a _ => xfit_string v _ a))) rfl <|
    kf_nil)).congr ?_
  simp only [StandardLevel.toP, and_true, true_and, and_assoc, implies_true, ne_eq, or_false, false_or]

theorem xfit_standardDefinition (v : Int) (n : String) (x : StandardDefinition) : CFit v .standard X.standardDefinition n x True (x.XFits v) := by
  refine (cf_struct (aa_ok rfl <| af_elem <| af_elem <| af_elem <| af_elem <| af_elem <| af_elem <| af_elem <| af_skip <| af_nil) (rf_none rfl) (.inr rfl)
    (kf_elem (so_el (xemp_string _) (xfit_string v _ _)) rfl <|
    kf_elem (so_el (xemp_string _) (xfit_string v _ _)) rfl <|
    kf_elem (so_el (xemp_string _) (xfit_string v _ _)) rfl <|
    kf_elem (so_el (xemp_string _) (xfit_string v _ _)) rfl <|
    kf_elem (np_opt (r := .standardRequirements) rfl (fun h => by simp [h, PSlice.elems]) (lp_many (fun _ => rfl) (fun a _ => xfit_standardRequirement v _ a))) rfl <|
    kf_plain (nt_opt (r := .standardLevels) rfl (lt_many (fun a _ => xfit_standardLevel v _ a))) rfl <|
    kf_elem (np_opt (r := .externalReferences) rfl (fun h => by simp [h, PSlice.elems]) (lp_many (fun _ => rfl) (fun a _ => xfit_externalReference v _ a))) rfl <|
    kf_nil)).congr ?_
  simp only [StandardDefinition.XFits, StandardDefinition.toP, and_true, true_and, and_assoc, implies_true, ne_eq, or_false, false_or]

theorem bf_enclosed {v : Int} {n : String} {r : XPlace} {α : Type} {f : α → Option (List Xml)} {q : PSlice α} {P : Prop}
    (side : (r.attrs.all fun d => !d.required) = true)
    (he : ∀ a ∈ q.elems, ∀ k, f a = some k → ∀ x ∈ k, ∃ m, x.isElem m = true)
    (h : ∀ ks, X.encEach f q.elems = some ks → (r.content.Matches v (XValid v) ks ↔ P)) :
    BFit v (.opt (.el n r)) (n, X.enclosed n f q) (q = .nil ∨ P) := by
  intro ks hk
  cases q with
  | nil =>
    cases hk
    simp [matches_opt_el]
  | nilSlice =>
    simp only [X.enclosed, Option.map_eq_some_iff] at hk
    obtain ⟨es, hes, rfl⟩ := hk
    rw [matches_opt_el, ← h es hes]
    simp [Xml.isElem, xvalid_bare side (encEach_elems hes he)]
  | list xs =>
    simp only [X.enclosed, Option.map_eq_some_iff] at hk
    obtain ⟨es, hes, rfl⟩ := hk
    rw [matches_opt_el, ← h es hes]
    simp [Xml.isElem, xvalid_bare side (encEach_elems hes he)]

theorem bf_enclosed_empty {v : Int} {n : String} {α : Type} {f : α → Option (List Xml)} {q : PSlice α} :
    BFit v .empty (n, X.enclosed n f q) (q = .nil) := by
  intro ks hk
  cases q with
  | nil => cases hk; simp [Content.matches_empty]
  | nilSlice =>
    simp only [X.enclosed, Option.map_eq_some_iff] at hk
    obtain ⟨es, hes, rfl⟩ := hk
    simp [Xml.isElem, Content.matches_empty]
  | list xs =>
    simp only [X.enclosed, Option.map_eq_some_iff] at hk
    obtain ⟨es, hes, rfl⟩ := hk
    simp [Xml.isElem, Content.matches_empty]

theorem standard_written (v : Int) {s : StandardDefinition} {k : List Xml}
    (h : (X.standardDefinition.enc "standard" s).map (·.toList) = some k) :
    ∃ x, k = [x] ∧ x.isElem "standard" = true ∧ (XValid v .standard x ↔ s.XFits v) := by
  obtain ⟨o, ho, rfl⟩ := Option.map_eq_some_iff.mp h
  obtain ⟨h₁, h₂⟩ := xfit_standardDefinition v "standard" s o ho
  obtain ⟨x, rfl⟩ := Option.isSome_iff_exists.mp (h₁.mpr trivial)
  exact ⟨x, rfl, h₂ x rfl⟩

theorem patentChoice_written (v : Int) {c : PatentChoice} {k : List Xml} (h : X.patentChoiceEnc c = some k) :
    (∃ p x, c.patent = some p ∧ k = [x] ∧ x.isElem "patent" = true ∧ (XValid v .patent x ↔ p.XFits v)) ∨
    (∃ f x, c.patent = none ∧ c.patentFamily = some f ∧ k = [x] ∧ x.isElem "patentFamily" = true ∧
      (XValid v .patentFamily x ↔ f.XFits v)) ∨
    (c.patent = none ∧ c.patentFamily = none ∧ k = []) := by
  simp only [X.patentChoiceEnc] at h
  split at h
  · rename_i p hp
    obtain ⟨o, ho, rfl⟩ := Option.map_eq_some_iff.mp h
    obtain ⟨h₁, h₂⟩ := xfit_patent v "patent" p o ho
    obtain ⟨x, rfl⟩ := Option.isSome_iff_exists.mp (h₁.mpr trivial)
    exact .inl ⟨p, x, hp, rfl, h₂ x rfl⟩
  · rename_i f hp hf
    obtain ⟨o, ho, rfl⟩ := Option.map_eq_some_iff.mp h
    obtain ⟨h₁, h₂⟩ := xfit_patentFamily v "patentFamily" f o ho
    obtain ⟨x, rfl⟩ := Option.isSome_iff_exists.mp (h₁.mpr trivial)
    exact .inr (.inl ⟨f, x, hp, hf, rfl, h₂ x rfl⟩)
  · rename_i hp hf
    cases h
    exact .inr (.inr ⟨hp, hf, rfl⟩)

theorem xfit_definitions (v : Int) (n : String) (x : Definitions) :
    CFit v .definitions X.definitions n x True (x.XFits v) := by
  have hs : BFit v (.opt (.el "standards" .standards)) ("standards",
      X.enclosed "standards" (fun s => (X.standardDefinition.enc "standard" s).map (·.toList)) x.standards)
      (x.standards = .nil ∨ ∀ y ∈ x.standards.elems, StandardDefinition.XFits v y) := by
    refine bf_enclosed rfl (fun a _ k hk x hx => ?_) fun ks hks => ?_
    · obtain ⟨y, rfl, h, _⟩ := standard_written v hk
      rw [List.mem_singleton.mp hx]; exact ⟨_, h⟩
    · show (Content.many (.el "standard" .standard)).Matches v (XValid v) ks ↔ _
      rw [Content.matches_many_el]
      refine encEach_all hks fun a _ k hk => ?_
      obtain ⟨y, rfl, h, h'⟩ := standard_written v hk
      simp [h, h']
  have hp : BFit v (.opt (.el "patents" .definitionsTypePatents)) ("patents",
      X.enclosed "patents" X.patentChoiceEnc x.patents)
      (x.patents = .nil ∨ ∀ y ∈ x.patents.elems, (∀ z ∈ y.patent, Patent.XFits v z) ∧
        (y.patent = none → ∀ z ∈ y.patentFamily, PatentFamily.XFits v z)) := by
    refine bf_enclosed rfl (fun a _ k hk x hx => ?_) fun ks hks => ?_
    · rcases patentChoice_written v hk with ⟨_, y, _, rfl, h, _⟩ | ⟨_, y, _, _, rfl, h, _⟩ | ⟨_, _, rfl⟩
      · rw [List.mem_singleton.mp hx]; exact ⟨_, h⟩
      · rw [List.mem_singleton.mp hx]; exact ⟨_, h⟩
      · cases hx
    · show (Content.many (.choice (.el "patent" .patent) (.el "patentFamily" .patentFamily))).Matches v (XValid v) ks ↔ _
      rw [matches_many_single]
      · refine encEach_all hks fun a _ k hk => ?_
        simp only [Content.matches_choice, matches_el_one]
        rcases patentChoice_written v hk with ⟨_, y, h₁, rfl, h, h'⟩ | ⟨_, y, h₁, h₂, rfl, h, h'⟩ | ⟨h₁, h₂, rfl⟩
        · simp [isElem_unique h, h₁, h']
        · simp [isElem_unique h, h₁, h₂, h']
        · simp [h₁, h₂]
      · intro l h
        simp only [Content.matches_choice, Content.matches_el] at h
        rcases h with ⟨x, rfl, _⟩ | ⟨x, rfl, _⟩ <;> exact ⟨x, rfl⟩
  intro o ho
  simp only [X.definitions] at ho
  split at ho
  · rename_i ss ps hss hps
    cases ho
    refine ⟨by simp, ?_⟩
    simp only [Option.mem_def, Option.some.injEq, forall_eq', Xml.isElem, decide_true, true_and]
    have hk := (kf_elem hs rfl <| kf_elem (bf_since_absorb (w := SpecVersion1_7) bf_enclosed_empty hp rfl) rfl <| kf_nil) (ss ++ ps)
      (by simp [cat, hss, hps])
    rw [xvalid_bare rfl fun y hy => let ⟨m, _, h⟩ := hk.1 y hy; ⟨m, h⟩]
    refine hk.2.trans ?_
    simp only [Definitions.XFits, and_true]
    refine and_congr_left fun _ => ⟨fun h => ?_, .inr⟩
    rcases h with h | h
    · simp [h, PSlice.elems]
    · exact h
  · cases ho


theorem xfit_dependencyRef (v : Int) (n : String) (x : String) :
    CFit v .dependency X.dependencyRef n x True True :=
  (cf_struct (aa_ok rfl <| af_nil) (rf_one rfl wr_here) (.inr rfl)
    fun ks h => by cases h; exact ⟨by simp, iff_true_intro .manyNil⟩).congr (by simp)

theorem xfit_dependencyRef_bomReference (v : Int) (n : String) (x : String) :
    CFit v .bomReference X.dependencyRef n x True True :=
  (cf_struct (aa_ok rfl <| af_nil) (rf_one rfl wr_here) (.inr rfl) kf_nil).congr (by simp)

theorem xfit_dependency (v : Int) (n : String) (x : Dependency) :
    CFit v .dependency X.dependency n x True (x.XFits v) := by
  have hk : KFit v XPlace.dependency.content (X.dependencyFields.blks x.toP) (x.XFits v) := by
    intro ks hks
    obtain ⟨ds, l, hd, hl, rfl⟩ := cat_cons hks
    obtain ⟨ps, m, hp, hm, rfl⟩ := cat_cons hl
    cases hm
    obtain ⟨hd₁, hd₂⟩ := lt_many (v := v) (n := "dependency") (oe := true) (q := x.toP.2.1)
      (fun a _ => xfit_dependencyRef v _ a) ds hd
    obtain ⟨hp₁, hp₂⟩ := lt_many (v := v) (n := "provides") (oe := true) (q := x.toP.2.2.1)
      (fun a _ => xfit_dependencyRef_bomReference v _ a) ps hp
    have hp₃ := (lp_empty (v := v) (n := "provides") (oe := true) (q := x.toP.2.2.1) (fun _ => rfl)
      (fun a _ => xfit_dependencyRef_bomReference v _ a) ps hp).2
    rw [Content.matches_many_el, iff_true] at hd₂ hp₂
    rw [Content.matches_empty] at hp₃
    rw [List.append_nil]
    refine ⟨fun y hy => ?_, ?_⟩
    · rcases List.mem_append.mp hy with hy | hy
      · exact ⟨"dependency", by simp [XFields.blks, X.dependencyFields, XField.list], hd₁ y hy⟩
      · exact ⟨"provides", by simp [XFields.blks, X.dependencyFields, XField.list], hp₁ y hy⟩
    · show (Content.many (.seq (.switch SpecVersion1_6 (.el "dependency" .dependency) (.opt (.el "dependency" .dependency)))
        (.seq (.since SpecVersion1_6 (.opt (.el "provides" .bomReference))) .empty))).Matches v (XValid v) _ ↔ _
      have hx : x.XFits v ↔ ps = [] ∨ SpecVersion1_6 ≤ v := by rw [hp₃]; rfl
      rw [hx]
      by_cases h6 : SpecVersion1_6 ≤ v
      · simp only [h6, or_true, iff_true]
        have : ∀ y ∈ ds ++ ps, y.isElem "dependency" = true ∧ XValid v .dependency y ∨
            y.isElem "provides" = true ∧ XValid v .bomReference y := by
          intro y hy
          rcases List.mem_append.mp hy with hy | hy
          · exact .inl (hd₂ y hy)
          · exact .inr (hp₂ y hy)
        generalize ds ++ ps = l at this
        induction l with
        | nil => exact .manyNil
        | cons y l ih =>
          have : (Content.many _).Matches v (XValid v) ([y] ++ l) :=
            .manyCons (a := .seq (.switch SpecVersion1_6 (.el "dependency" .dependency)
              (.opt (.el "dependency" .dependency))) (.seq (.since SpecVersion1_6 (.opt (.el "provides" .bomReference)))
              .empty)) ?_ (ih fun z hz => this z (by simp [hz]))
          · exact this
          · rcases this y (by simp) with h | h
            · exact .seq (l := [y]) (m := []) (.new h6 (.optSome (.el h.1 h.2))) (.seq (l := []) (m := []) (.new h6 .optNone) .empty)
            · exact .seq (l := []) (m := [y]) (.new h6 .optNone) (.seq (l := [y]) (m := []) (.new h6 (.optSome (.el h.1 h.2))) .empty)
      · simp only [h6, or_false]
        have hv : v < SpecVersion1_6 := Int.not_le.mp h6
        have hA : ∀ l, (Content.seq (.switch SpecVersion1_6 (.el "dependency" .dependency)
            (.opt (.el "dependency" .dependency))) (.seq (.since SpecVersion1_6 (.opt (.el "provides" .bomReference)))
            .empty)).Matches v (XValid v) l ↔ (Content.el "dependency" .dependency).Matches v (XValid v) l := by
          intro l
          simp [Content.matches_seq, Content.matches_switch, Content.since, Content.matches_empty, h6, hv]
        rw [matches_many_single fun l h => let ⟨x, h, _⟩ := Content.matches_el.mp ((hA l).mp h); ⟨x, h⟩]
        simp only [hA, matches_el_one]
        constructor
        · intro h
          cases ps with
          | nil => rfl
          | cons y ps =>
            have hy := (h y (by simp)).1
            rw [isElem_unique (hp₁ y (by simp))] at hy
            exact absurd (show "provides" = "dependency" from hy) (by decide)
        · rintro rfl y hy
          exact hd₂ y (by simpa using hy)
  exact fun o ho => ((cf_struct (F := X.dependencyFields) (ofP := Dependency.ofP) (aa_ok rfl <| af_elem <| af_elem <| af_nil) (rf_one rfl wr_here) (.inr rfl) hk).congr
    (by simp)) o ho


theorem xfit_resourceReferenceChoice (v : Int) (n : String) (x : ResourceReferenceChoice) : CFit v .resourceReference X.resourceReferenceChoice n x True (x.XFits v) := by
  refine (cf_struct (af_elem <| af_elem <| af_nil) (rf_none rfl) (.inr rfl)
    (kf_choice (kf_single (kf_elem (so_el (xemp_string _) (xfit_string v _ _)) rfl <|
    kf_none (pt_empty (fun a _ => xfit_externalReference v _ a)) rfl <|
    kf_nil)) (kf_single (kf_none (so_empty (xemp_string _) (xfit_string v _ _)) rfl <|
    kf_elem (pp_el (fun a _ => xfit_externalReference v _ a)) rfl <|
    kf_nil)))).congr ?_
  simp only [ResourceReferenceChoice.XFits, ResourceReferenceChoice.toP, and_true, true_and, and_assoc, implies_true, ne_eq, or_false, false_or]

theorem environmentVariable_written (v : Int) {c : EnvironmentVariableChoice} {k : List Xml}
    (h : X.environmentVariableEnc c = some k) :
    k = [] ∨ ∃ x, k = [x] ∧ (x.isElem "environmentVar" = true ∧ XValid v .property x ∨
      x.isElem "value" = true ∧ XValid v .text x) := by
  simp only [X.environmentVariableEnc] at h
  split at h
  · rename_i p hp
    split at h
    · cases h
    · obtain ⟨o, ho, rfl⟩ := Option.map_eq_some_iff.mp h
      obtain ⟨h₁, h₂⟩ := xfit_property v "environmentVar" p o ho
      obtain ⟨x, rfl⟩ := Option.isSome_iff_exists.mp (h₁.mpr trivial)
      exact .inr ⟨x, rfl, .inl ⟨(h₂ x rfl).1, (h₂ x rfl).2.mpr trivial⟩⟩
  · split at h
    · obtain ⟨o, ho, rfl⟩ := Option.map_eq_some_iff.mp h
      obtain ⟨h₁, h₂⟩ := xfit_string v "value" c.value o ho
      obtain ⟨x, rfl⟩ := Option.isSome_iff_exists.mp (h₁.mpr trivial)
      exact .inr ⟨x, rfl, .inr ⟨(h₂ x rfl).1, (h₂ x rfl).2.mpr trivial⟩⟩
    · cases h; exact .inl rfl

theorem xfit_environmentVariables (v : Int) (n : String) (l : List EnvironmentVariableChoice) :
    CFit v .inputTypeEnvironmentVars X.environmentVariables n l (l ≠ []) True := by
  intro o ho
  cases hl : l with
  | nil =>
    subst hl
    simp only [X.environmentVariables, Option.some.injEq] at ho
    subst ho
    simp
  | cons c cs =>
    have hne : l ≠ [] := by simp [hl]
    have ho' : (X.encEach X.environmentVariableEnc l).map (fun ks => some (Xml.elem n [] ks)) = some o := by
      rw [hl] at ho ⊢; exact ho
    rw [← hl]
    clear hl ho
    obtain ⟨ks, hks, rfl⟩ := Option.map_eq_some_iff.mp ho'
    refine ⟨by simp [hne], ?_⟩
    simp only [Option.mem_def, Option.some.injEq, forall_eq', iff_true]
    refine ⟨by simp [Xml.isElem], ?_⟩
    rw [xvalid_bare rfl (encEach_elems hks fun a _ k hk x hx => by
      rcases environmentVariable_written v hk with rfl | ⟨y, rfl, h | h⟩
      · cases hx
      · rw [List.mem_singleton.mp hx]; exact ⟨_, h.1⟩
      · rw [List.mem_singleton.mp hx]; exact ⟨_, h.1⟩)]
    show (Content.many (.choice (.el "environmentVar" .property) (.el "value" .text))).Matches v (XValid v) ks
    rw [matches_many_single]
    · refine (encEach_all (P := fun _ => True) hks fun a _ k hk => ?_).mpr fun _ _ => trivial
      simp only [Content.matches_choice, matches_el_one, iff_true]
      rcases environmentVariable_written v hk with rfl | ⟨y, rfl, h⟩
      · simp
      · simpa using h
    · intro l h
      simp only [Content.matches_choice, Content.matches_el] at h
      rcases h with ⟨x, rfl, _⟩ | ⟨x, rfl, _⟩ <;> exact ⟨x, rfl⟩


theorem xfit_parameter (v : Int) (n : String) (x : Parameter) : CFit v .parameter X.parameter n x True True := by
  refine (cf_struct (af_elem <| af_elem <| af_elem <| af_nil) (rf_none rfl) (.inr rfl)
    (kf_plain (so_opt (xfit_string v _ _)) rfl <|
    kf_plain (so_opt (xfit_string v _ _)) rfl <|
    kf_plain (so_opt (xfit_string v _ _)) rfl <|
    kf_nil)).congr ?_
  simp only [Parameter.toP, and_true, true_and, and_assoc, implies_true, ne_eq, or_false, false_or]

theorem xfit_taskInput (v : Int) (n : String) (x : TaskInput) : CFit v .input X.taskInput n x True (x.XFits v) := by
  refine (cf_struct (af_elem <| af_elem <| af_elem <| af_elem <| af_elem <| af_elem <| af_elem <| af_nil) (rf_none rfl) (.inr rfl)
    (kf_group (fs := [_, _, _, _]) (kf_choice (kf_single (kf_elem (pp_el (fun a _ => xfit_resourceReferenceChoice v _ a)) rfl <|
    kf_none (bf_nlist_empty) rfl <|
    kf_none (bf_slice_empty (xfit_environmentVariables v _ _)) rfl <|
    kf_none (pt_empty (fun a _ => xfit_attachedText v _ a)) rfl <|
    kf_nil)) (kf_choice (kf_single (kf_none (pt_empty (fun a _ => xfit_resourceReferenceChoice v _ a)) rfl <|
    kf_elem (nt_el (r := .parameters) rfl (lt_many (fun a _ => xfit_parameter v _ a))) rfl <|
    kf_none (bf_slice_empty (xfit_environmentVariables v _ _)) rfl <|
    kf_none (pt_empty (fun a _ => xfit_attachedText v _ a)) rfl <|
    kf_nil)) (kf_choice (kf_single (kf_none (pt_empty (fun a _ => xfit_resourceReferenceChoice v _ a)) rfl <|
    kf_none (bf_nlist_empty) rfl <|
    kf_elem (st_el (xfit_environmentVariables v _ _)) rfl <|
    kf_none (pt_empty (fun a _ => xfit_attachedText v _ a)) rfl <|
    kf_nil)) (kf_single (kf_none (pt_empty (fun a _ => xfit_resourceReferenceChoice v _ a)) rfl <|
    kf_none (bf_nlist_empty) rfl <|
    kf_none (bf_slice_empty (xfit_environmentVariables v _ _)) rfl <|
    kf_elem (pt_el (fun a _ => xfit_attachedText v _ a)) rfl <|
    kf_nil))))) rfl rfl <|
    kf_elem (pp_opt (fun a _ => xfit_resourceReferenceChoice v _ a)) rfl <|
    kf_elem (pp_opt (fun a _ => xfit_resourceReferenceChoice v _ a)) rfl <|
    kf_plain (nt_opt (r := .properties) rfl (lt_many (fun a _ => xfit_property v _ a))) rfl <|
    kf_nil)).congr ?_
  simp only [TaskInput.XFits, TaskInput.toP, and_true, true_and, and_assoc, implies_true, ne_eq, or_false, false_or]

theorem xfit_taskOutput (v : Int) (n : String) (x : TaskOutput) : CFit v .output X.taskOutput n x True (x.XFits v) := by
  refine (cf_struct (af_elem <| af_elem <| af_elem <| af_elem <| af_elem <| af_elem <| af_elem <| af_elem <| af_nil) (rf_none rfl) (.inr rfl)
    (kf_pull (A := [_]) (B := [_]) (bf_slice_empty (xfit_environmentVariables v _ _)) (kf_none (bf_nlist_empty) rfl <|
    kf_nil) rfl <|
    kf_pull (A := [_, _]) (B := [_]) (pt_empty (fun a _ => xfit_attachedText v _ a)) (kf_none (bf_nlist_empty) rfl <|
    kf_nil) rfl <|
    kf_group (fs := [_, _, _]) (kf_choice (kf_single (kf_elem (pp_el (fun a _ => xfit_resourceReferenceChoice v _ a)) rfl <|
    kf_none (bf_slice_empty (xfit_environmentVariables v _ _)) rfl <|
    kf_none (pt_empty (fun a _ => xfit_attachedText v _ a)) rfl <|
    kf_nil)) (kf_choice (kf_single (kf_none (pt_empty (fun a _ => xfit_resourceReferenceChoice v _ a)) rfl <|
    kf_elem (st_el (xfit_environmentVariables v _ _)) rfl <|
    kf_none (pt_empty (fun a _ => xfit_attachedText v _ a)) rfl <|
    kf_nil)) (kf_single (kf_none (pt_empty (fun a _ => xfit_resourceReferenceChoice v _ a)) rfl <|
    kf_none (bf_slice_empty (xfit_environmentVariables v _ _)) rfl <|
    kf_elem (pt_el (fun a _ => xfit_attachedText v _ a)) rfl <|
    kf_nil)))) rfl rfl <|
    kf_none (bf_nlist_empty) rfl <|
    kf_plain (so_opt (xfit_string v _ _)) rfl <|
    kf_elem (pp_opt (fun a _ => xfit_resourceReferenceChoice v _ a)) rfl <|
    kf_elem (pp_opt (fun a _ => xfit_resourceReferenceChoice v _ a)) rfl <|
    kf_plain (nt_opt (r := .properties) rfl (lt_many (fun a _ => xfit_property v _ a))) rfl <|
    kf_nil)).congr ?_
  simp only [TaskOutput.XFits, TaskOutput.toP, and_true, true_and, and_assoc, implies_true, ne_eq, or_false, false_or]

theorem xfit_taskCommand (v : Int) (n : String) (x : TaskCommand) : CFit v .commandsCommand X.taskCommand n x True True := by
  refine (cf_struct (af_elem <| af_elem <| af_nil) (rf_none rfl) (.inr rfl)
    (kf_plain (so_opt (xfit_string v _ _)) rfl <|
    kf_plain (nt_opt (r := .properties) rfl (lt_many (fun a _ => xfit_property v _ a))) rfl <|
    kf_nil)).congr ?_
  simp only [TaskCommand.toP, and_true, true_and, and_assoc, implies_true, ne_eq, or_false, false_or]

theorem xfit_taskStep (v : Int) (n : String) (x : TaskStep) : CFit v .step X.taskStep n x True True := by
  refine (cf_struct (af_elem <| af_elem <| af_elem <| af_elem <| af_nil) (rf_none rfl) (.inr rfl)
    (kf_plain (so_opt (xfit_string v _ _)) rfl <|
    kf_plain (so_opt (xfit_string v _ _)) rfl <|
    kf_plain (nt_opt (r := .commands) rfl (lt_many (fun a _ => xfit_taskCommand v _ a))) rfl <|
    kf_plain (nt_opt (r := .properties) rfl (lt_many (fun a _ => xfit_property v _ a))) rfl <|
    kf_nil)).congr ?_
  simp only [TaskStep.toP, and_true, true_and, and_assoc, implies_true, ne_eq, or_false, false_or]

theorem xfit_event (v : Int) (n : String) (x : Event) : CFit v .event X.event n x True (x.XFits v) := by
  refine (cf_struct (af_elem <| af_elem <| af_elem <| af_elem <| af_elem <| af_elem <| af_elem <| af_nil) (rf_none rfl) (.inr rfl)
    (kf_plain (so_opt (xfit_string v _ _)) rfl <|
    kf_plain (so_opt (xfit_string v _ _)) rfl <|
    kf_plain (so_opt (xfit_string v _ _)) rfl <|
    kf_plain (pt_opt (fun a _ => xfit_attachedText v _ a)) rfl <|
    kf_elem (pp_opt (fun a _ => xfit_resourceReferenceChoice v _ a)) rfl <|
    kf_elem (pp_opt (fun a _ => xfit_resourceReferenceChoice v _ a)) rfl <|
    kf_plain (nt_opt (r := .properties) rfl (lt_many (fun a _ => xfit_property v _ a))) rfl <|
    kf_nil)).congr ?_
  simp only [Event.XFits, Event.toP, and_true, true_and, and_assoc, implies_true, ne_eq, or_false, false_or]

theorem xfit_taskTriggerCondition (v : Int) (n : String) (x : TaskTriggerCondition) : CFit v .conditionsCondition X.taskTriggerCondition n x True True := by
  refine (cf_struct (af_elem <| af_elem <| af_elem <| af_nil) (rf_none rfl) (.inr rfl)
    (kf_plain (so_opt (xfit_string v _ _)) rfl <|
    kf_plain (so_opt (xfit_string v _ _)) rfl <|
    kf_plain (nt_opt (r := .properties) rfl (lt_many (fun a _ => xfit_property v _ a))) rfl <|
    kf_nil)).congr ?_
  simp only [TaskTriggerCondition.toP, and_true, true_and, and_assoc, implies_true, ne_eq, or_false, false_or]

theorem xfit_taskTrigger (v : Int) (n : String) (x : TaskTrigger) : CFit v .trigger X.taskTrigger n x True (x.XFits v) := by
  refine (cf_struct (aa_ok rfl <| af_elem <| af_elem <| af_elem <| af_elem <| af_elem <| af_elem <| af_elem <| af_elem <| af_elem <| af_elem <| af_elem <| af_nil) (rf_one rfl (wr_oe rfl (emt_string _))) (.inr rfl)
    (kf_elem (so_el (xemp_string _) (xfit_string v _ _)) rfl <|
    kf_plain (so_opt (xfit_string v _ _)) rfl <|
    kf_plain (so_opt (xfit_string v _ _)) rfl <|
    kf_elem (np_opt (r := .resourceReferences) rfl (fun h => by simp [h, PSlice.elems]) (lp_many (fun _ => rfl) (fun a _ => xfit_resourceReferenceChoice v _ a))) rfl <|
    kf_elem (so_el (xemp_string _) (xfit_string v _ _)) rfl <|
    kf_elem (pp_opt (fun a _ => xfit_event v _ a)) rfl <|
    kf_plain (nt_opt (r := .conditions) rfl (lt_many (fun a _ => xfit_taskTriggerCondition v _ a))) rfl <|
    kf_plain (so_opt (xfit_string v _ _)) rfl <|
    kf_elem (np_opt (r := .taskTypeInputs) rfl (fun h => by simp [h, PSlice.elems]) (lp_many (fun _ => rfl) (fun a _ => xfit_taskInput v _ a))) rfl <|
    kf_elem (np_opt (r := .taskTypeOutputs) rfl (fun h => by simp [h, PSlice.elems]) (lp_many (fun _ => rfl) (fun a _ => xfit_taskOutput v _ a))) rfl <|
    kf_plain (nt_opt (r := .properties) rfl (lt_many (fun a _ => xfit_property v _ a))) rfl <|
    kf_nil)).congr ?_
  simp only [TaskTrigger.XFits, TaskTrigger.toP, and_true, true_and, and_assoc, implies_true, ne_eq, or_false, false_or]

theorem xfit_volume (v : Int) (n : String) (x : Volume) : CFit v .volume X.volume n x True True := by
  refine (cf_struct (af_elem <| af_elem <| af_elem <| af_elem <| af_elem <| af_elem <| af_elem <| af_elem <| af_nil) (rf_none rfl) (.inr rfl)
    (kf_plain (so_opt (xfit_string v _ _)) rfl <|
    kf_plain (so_opt (xfit_string v _ _)) rfl <|
    kf_plain (so_opt (xfit_string v _ _)) rfl <|
    kf_plain (so_opt (xfit_string v _ _)) rfl <|
    kf_plain (so_opt (xfit_string v _ _)) rfl <|
    kf_plain (pt_opt (fun a _ => xfit_bool v _ a)) rfl <|
    kf_plain (pt_opt (fun a _ => xfit_bool v _ a)) rfl <|
    kf_plain (nt_opt (r := .properties) rfl (lt_many (fun a _ => xfit_property v _ a))) rfl <|
    kf_nil)).congr ?_
  simp only [Volume.toP, and_true, true_and, and_assoc, implies_true, ne_eq, or_false, false_or]

theorem xfit_taskWorkspace (v : Int) (n : String) (x : TaskWorkspace) : CFit v .workspace X.taskWorkspace n x True (x.XFits v) := by
  refine (cf_struct (aa_ok rfl <| af_elem <| af_elem <| af_elem <| af_elem <| af_elem <| af_elem <| af_elem <| af_elem <| af_elem <| af_elem <| af_elem <| af_nil) (rf_one rfl (wr_oe rfl (emt_string _))) (.inr rfl)
    (kf_many_once "uid" rfl (am_here (v := v) (plain_one (xfit_string v _ _)) (kf_none (so_empty (xemp_string _) (xfit_string v _ _)) rfl <|
    kf_none (bf_nlist_empty) rfl <|
    kf_none (so_empty (xemp_string _) (xfit_string v _ _)) rfl <|
    kf_none (bf_nlist_empty) rfl <|
    kf_none (so_empty (xemp_string _) (xfit_string v _ _)) rfl <|
    kf_none (so_empty (xemp_string _) (xfit_string v _ _)) rfl <|
    kf_none (so_empty (xemp_string _) (xfit_string v _ _)) rfl <|
    kf_none (so_empty (xemp_string _) (xfit_string v _ _)) rfl <|
    kf_none (pt_empty (fun a _ => xfit_volume v _ a)) rfl <|
    kf_none (bf_nlist_empty) rfl <|
    kf_nil) rfl) (kf_none (so_empty (xemp_string _) (xfit_string v _ _)) rfl <|
    kf_none (so_empty (xemp_string _) (xfit_string v _ _)) rfl <|
    kf_none (bf_nlist_empty) rfl <|
    kf_none (so_empty (xemp_string _) (xfit_string v _ _)) rfl <|
    kf_none (bf_nlist_empty) rfl <|
    kf_none (so_empty (xemp_string _) (xfit_string v _ _)) rfl <|
    kf_none (so_empty (xemp_string _) (xfit_string v _ _)) rfl <|
    kf_none (so_empty (xemp_string _) (xfit_string v _ _)) rfl <|
    kf_none (so_empty (xemp_string _) (xfit_string v _ _)) rfl <|
    kf_none (pt_empty (fun a _ => xfit_volume v _ a)) rfl <|
    kf_none (bf_nlist_empty) rfl <|
    kf_nil) (kf_elem (so_el (xemp_string _) (xfit_string v _ _)) rfl <|
    kf_plain (so_opt (xfit_string v _ _)) rfl <|
    kf_plain (nt_opt (r := .workspaceTypeAliases) rfl (lt_many (fun a _ => xfit_string v _ a))) rfl <|
    kf_plain (so_opt (xfit_string v _ _)) rfl <|
    kf_elem (np_opt (r := .resourceReferences) rfl (fun h => by simp [h, PSlice.elems]) (lp_many (fun _ => rfl) (fun a _ => xfit_resourceReferenceChoice v _ a))) rfl <|
    kf_plain (so_opt (xfit_string v _ _)) rfl <|
    kf_plain (so_opt (xfit_string v _ _)) rfl <|
    kf_plain (so_opt (xfit_string v _ _)) rfl <|
    kf_plain (so_opt (xfit_string v _ _)) rfl <|
    kf_plain (pt_opt (fun a _ => xfit_volume v _ a)) rfl <|
    kf_plain (nt_opt (r := .properties) rfl (lt_many (fun a _ => xfit_property v _ a))) rfl <|
    kf_nil))).congr ?_
  simp only [TaskWorkspace.XFits, TaskWorkspace.toP, and_true, true_and, and_assoc, implies_true, ne_eq, or_false, false_or]

theorem xfit_task (v : Int) (n : String) (x : Task) : CFit v .task X.task n x True (x.XFits v) := by
  refine (cf_struct (aa_ok rfl <| af_elem <| af_elem <| af_elem <| af_elem <| af_elem <| af_elem <| af_elem <| af_elem <| af_elem <| af_elem <| af_elem <| af_elem <| af_elem <| af_elem <| af_nil) (rf_one rfl (wr_oe rfl (emt_string _))) (.inr rfl)
    (kf_elem (so_el (xemp_string _) (xfit_string v _ _)) rfl <|
    kf_plain (so_opt (xfit_string v _ _)) rfl <|
    kf_plain (so_opt (xfit_string v _ _)) rfl <|
    kf_pull (A := []) (B := [_]) (bf_nlist_empty) (kf_none (bf_nlist_empty) rfl <|
    kf_nil) rfl <|
    kf_elem (np_opt (r := .resourceReferences) rfl (fun h => by simp [h, PSlice.elems]) (lp_many (fun _ => rfl) (fun a _ => xfit_resourceReferenceChoice v _ a))) rfl <|
    kf_pull (A := []) (B := [_]) (bf_nlist_empty) (kf_none (bf_nlist_empty) rfl <|
    kf_nil) rfl <|
    kf_elem (nt_el (r := .taskTypeTaskTypes) rfl (lt_many (fun a _ => xfit_string v _ a))) rfl <|
    kf_pull (A := []) (B := [_]) (pt_empty (fun a _ => xfit_taskTrigger v _ a)) (kf_none (bf_nlist_empty) rfl <|
    kf_nil) rfl <|
    kf_elem (pp_opt (fun a _ => xfit_taskTrigger v _ a)) rfl <|
    kf_pull (A := []) (B := [_]) (bf_nlist_empty) (kf_none (bf_nlist_empty) rfl <|
    kf_nil) rfl <|
    kf_plain (nt_opt (r := .taskTypeSteps) rfl (lt_many (fun a _ => xfit_taskStep v _ a))) rfl <|
    kf_pull (A := []) (B := [_]) (bf_nlist_empty) (kf_none (bf_nlist_empty) rfl <|
    kf_nil) rfl <|
    kf_elem (np_opt (r := .taskTypeInputs) rfl (fun h => by simp [h, PSlice.elems]) (lp_many (fun _ => rfl) (fun a _ => xfit_taskInput v _ a))) rfl <|
    kf_pull (A := []) (B := [_]) (bf_nlist_empty) (kf_none (bf_nlist_empty) rfl <|
    kf_nil) rfl <|
    kf_elem (np_opt (r := .taskTypeOutputs) rfl (fun h => by simp [h, PSlice.elems]) (lp_many (fun _ => rfl) (fun a _ => xfit_taskOutput v _ a))) rfl <|
    kf_pull (A := []) (B := [_]) (so_empty (xemp_string _) (xfit_string v _ _)) (kf_none (bf_nlist_empty) rfl <|
    kf_nil) rfl <|
    kf_plain (so_opt (xfit_string v _ _)) rfl <|
    kf_pull (A := []) (B := [_]) (so_empty (xemp_string _) (xfit_string v _ _)) (kf_none (bf_nlist_empty) rfl <|
    kf_nil) rfl <|
    kf_plain (so_opt (xfit_string v _ _)) rfl <|
    kf_pull (A := []) (B := [_]) (bf_nlist_empty) (kf_none (bf_nlist_empty) rfl <|
    kf_nil) rfl <|
    kf_elem (np_opt (r := .workspaces) rfl (fun h => by simp [h, PSlice.elems]) (lp_many (fun _ => rfl) (fun a _ => xfit_taskWorkspace v _ a))) rfl <|
    kf_pull (A := []) (B := [_]) (bf_nlist_empty) (kf_none (bf_nlist_empty) rfl <|
    kf_nil) rfl <|
    kf_elem (np_opt (r := .dependencies) rfl (fun h => by simp [h, PSlice.elems]) (lp_many (fun _ => rfl) (fun a _ => xfit_dependency v _ a))) rfl <|
    kf_plain (nt_opt (r := .properties) rfl (lt_many (fun a _ => xfit_property v _ a))) rfl <|
    kf_nil)).congr ?_
  simp only [Task.XFits, Task.toP, and_true, true_and, and_assoc, implies_true, ne_eq, or_false, false_or]

theorem xfit_workflow (v : Int) (n : String) (x : Workflow) : CFit v .workflow X.workflow n x True (x.XFits v) := by
  refine (cf_struct (aa_ok rfl <| af_elem <| af_elem <| af_elem <| af_elem <| af_elem <| af_elem <| af_elem <| af_elem <| af_elem <| af_elem <| af_elem <| af_elem <| af_elem <| af_elem <| af_elem <| af_elem <| af_nil) (rf_one rfl (wr_oe rfl (emt_string _))) (.inr rfl)
    (kf_elem (so_el (xemp_string _) (xfit_string v _ _)) rfl <|
    kf_plain (so_opt (xfit_string v _ _)) rfl <|
    kf_plain (so_opt (xfit_string v _ _)) rfl <|
    kf_elem (np_opt (r := .resourceReferences) rfl (fun h => by simp [h, PSlice.elems]) (lp_many (fun _ => rfl) (fun a _ => xfit_resourceReferenceChoice v _ a))) rfl <|
    kf_elem (np_opt (r := .tasks) rfl (fun h => by simp [h, PSlice.elems]) (lp_many (fun _ => rfl) (fun a _ => xfit_task v _ a))) rfl <|
    kf_elem (np_opt (r := .dependencies) rfl (fun h => by simp [h, PSlice.elems]) (lp_many (fun _ => rfl) (fun a _ => xfit_dependency v _ a))) rfl <|
    kf_elem (nt_el (r := .taskTypeTaskTypes) rfl (lt_many (fun a _ => xfit_string v _ a))) rfl <|
    kf_elem (pp_opt (fun a _ => xfit_taskTrigger v _ a)) rfl <|
    kf_plain (nt_opt (r := .taskTypeSteps) rfl (lt_many (fun a _ => xfit_taskStep v _ a))) rfl <|
    kf_elem (np_opt (r := .taskTypeInputs) rfl (fun h => by simp [h, PSlice.elems]) (lp_many (fun _ => rfl) (fun a _ => xfit_taskInput v _ a))) rfl <|
    kf_elem (np_opt (r := .taskTypeOutputs) rfl (fun h => by simp [h, PSlice.elems]) (lp_many (fun _ => rfl) (fun a _ => xfit_taskOutput v _ a))) rfl <|
    kf_plain (so_opt (xfit_string v _ _)) rfl <|
    kf_plain (so_opt (xfit_string v _ _)) rfl <|
    kf_elem (np_opt (r := .workspaces) rfl (fun h => by simp [h, PSlice.elems]) (lp_many (fun _ => rfl) (fun a _ => xfit_taskWorkspace v _ a))) rfl <|
    kf_elem (np_opt (r := .dependencies) rfl (fun h => by simp [h, PSlice.elems]) (lp_many (fun _ => rfl) (fun a _ => xfit_dependency v _ a))) rfl <|
    kf_plain (nt_opt (r := .properties) rfl (lt_many (fun a _ => xfit_property v _ a))) rfl <|
    kf_nil)).congr ?_
  simp only [Workflow.XFits, Workflow.toP, and_true, true_and, and_assoc, implies_true, ne_eq, or_false, false_or]

theorem xfit_formula (v : Int) (n : String) (x : Formula) : CFit v .formula X.formula n x True (x.XFits v) := by
  refine (cf_struct (aa_ok rfl <| af_elem <| af_elem <| af_elem <| af_elem <| af_nil) (rf_none rfl) (.inr rfl)
    (kf_elem (np_opt (r := .components) rfl (fun h => by simp [h, PSlice.elems]) (lp_many (fun _ => rfl) (fun a _ => xfit_component v _ a))) rfl <|
    kf_elem (np_opt (r := .services) rfl (fun h => by simp [h, PSlice.elems]) (lp_many (fun _ => rfl) (fun a _ => xfit_service v _ a))) rfl <|
    kf_elem (np_opt (r := .workflows) rfl (fun h => by simp [h, PSlice.elems]) (lp_many (fun _ => rfl) (fun a _ => xfit_workflow v _ a))) rfl <|
    kf_plain (nt_opt (r := .properties) rfl (lt_many (fun a _ => xfit_property v _ a))) rfl <|
    kf_nil)).congr ?_
  simp only [Formula.XFits, Formula.toP, and_true, true_and, and_assoc, implies_true, ne_eq, or_false, false_or]

theorem xfit_lifecycle (v : Int) (n : String) (x : Lifecycle) : CFit v .lifecyclesLifecycle X.lifecycle n x True (x.XFits v) := by
  refine (cf_struct (af_elem <| af_elem <| af_elem <| af_nil) (rf_none rfl) (.inr rfl)
    (kf_choice (kf_single (kf_none (so_empty (xemp_string _) (xfit_string v _ _)) rfl <|
    kf_elem (so_el (xemp_string _) (xfit_string v _ _)) rfl <|
    kf_none (so_empty (xemp_string _) (xfit_string v _ _)) rfl <|
    kf_nil)) (kf_elem (so_el (xemp_string _) (xfit_string v _ _)) rfl <|
    kf_none (so_empty (xemp_string _) (xfit_string v _ _)) rfl <|
    kf_plain (so_opt (xfit_string v _ _)) rfl <|
    kf_nil))).congr ?_
  simp only [Lifecycle.XFits, Lifecycle.toP, and_true, true_and, and_assoc, implies_true, ne_eq, or_false, false_or]

theorem xfit_tool (v : Int) (n : String) (x : Tool) : CFit v .tool X.tool n x True (x.XFits v) := by
  refine (cf_struct (af_elem <| af_elem <| af_elem <| af_elem <| af_elem <| af_nil) (rf_none rfl) (.inr rfl)
    (kf_opt rfl (kf_plain (so_opt (xfit_string v _ _)) rfl <|
    kf_plain (bf_plain_opt (xfit_string v _ _)) rfl <|
    kf_plain (so_opt (xfit_string v _ _)) rfl <|
    kf_plain (nt_opt (r := .toolTypeHashes) rfl (lt_many (fun a _ => xfit_hash v _ a))) rfl <|
    kf_elem (bf_since (bf_nlist_empty) (np_opt (r := .externalReferences) rfl (fun h => by simp [h, PSlice.elems]) (lp_many (fun _ => rfl) (fun a _ => xfit_externalReference v _ a))) rfl) rfl <|
    kf_nil))).congr ?_
  simp only [Tool.XFits, Tool.toP, and_true, true_and, and_assoc, implies_true, ne_eq, or_false, false_or]

theorem xfit_toolsParts (v : Int) (n : String) (p : PSlice Tool × PSlice Component × PSlice Service × Unit) :
    CFit v .tools (XCodec.struct X.toolsChoiceFields id id) n p True
      ((v < SpecVersion1_5 ∧ (∀ y ∈ p.1.elems, Tool.XFits v y) ∧ p.2.1 = .nil ∧ p.2.2.1 = .nil ∨ SpecVersion1_5 ≤ v ∧ ((∀ y ∈ p.1.elems, Tool.XFits v y) ∧ p.2.1 = .nil ∧ p.2.2.1 = .nil ∨ (p.1.elems = []) ∧ (∀ y ∈ p.2.1.elems, Component.XFits v y) ∧ (∀ y ∈ p.2.2.1.elems, Service.XFits v y)))) := by
  refine (cf_struct (af_elem <| af_elem <| af_elem <| af_nil) (rf_none rfl) (.inr rfl)
    (kf_switch (kf_single (kf_elem (lp_many (fun _ => rfl) (fun a _ => xfit_tool v _ a)) rfl <|
    kf_none (bf_nlist_empty) rfl <|
    kf_none (bf_nlist_empty) rfl <|
    kf_nil)) (kf_choice (kf_single (kf_elem (lp_many (fun _ => rfl) (fun a _ => xfit_tool v _ a)) rfl <|
    kf_none (bf_nlist_empty) rfl <|
    kf_none (bf_nlist_empty) rfl <|
    kf_nil)) (kf_opt rfl (kf_none (lp_empty (fun _ => rfl) (fun a _ => xfit_tool v _ a)) rfl <|
    kf_elem (np_opt (r := .components) rfl (fun h => by rw [h]; simp [PSlice.elems]) (lp_many (fun _ => rfl) (fun a _ => xfit_component v _ a))) rfl <|
    kf_elem (np_opt (r := .services) rfl (fun h => by rw [h]; simp [PSlice.elems]) (lp_many (fun _ => rfl) (fun a _ => xfit_service v _ a))) rfl <|
    kf_nil))))).congr ?_
  simp only [id, and_true, true_and, and_assoc]

theorem xfit_toolsChoice (v : Int) (n : String) (x : ToolsChoice) :
    CFit v .tools X.toolsChoice n x x.XWritten (x.XFits v) := by
  have nn : ∀ {α : Type} (p : PSlice α), p.isNil = true ↔ p = .nil := by
    intro α p; cases p <;> simp [PSlice.isNil]
  intro o ho
  simp only [X.toolsChoice] at ho
  obtain ⟨t, c, s⟩ := x
  simp only [ToolsChoice.XWritten, ToolsChoice.XFits]
  split at ho
  · cases ho
  · rename_i h1
    simp only [nn] at h1
    split at ho
    · rename_i ht
      simp only [nn] at ht
      have hcs : c = .nil ∧ s = .nil :=
        ⟨Classical.byContradiction fun h => h1 ⟨ht, .inl h⟩, Classical.byContradiction fun h => h1 ⟨ht, .inr h⟩⟩
      have H := xfit_toolsParts v n _ o ho
      obtain ⟨rfl, rfl⟩ := hcs
      refine ⟨by simpa [ht] using H.1, fun y hy => ⟨(H.2 y hy).1, (H.2 y hy).2.trans ?_⟩⟩
      have he : (PSlice.nil : PSlice Component).elems = [] ∧ (PSlice.nil : PSlice Service).elems = [] := ⟨rfl, rfl⟩
      simp only [he, and_true, true_and, true_or, List.not_mem_nil, false_implies, implies_true]
      constructor
      · rintro (⟨_, h⟩ | ⟨_, h | h⟩)
        · exact h
        · exact h
        · simp [h]
      · intro h
        by_cases hv : v < SpecVersion1_5
        · exact .inl ⟨hv, h⟩
        · exact .inr ⟨Int.not_lt.mp hv, .inl h⟩
    · rename_i ht
      simp only [nn] at ht
      have ht : t = .nil := Classical.byContradiction ht
      subst ht
      split at ho
      · rename_i hcs
        simp only [nn] at hcs
        have H := xfit_toolsParts v n _ o ho
        refine ⟨by simpa using H.1.trans (by simpa using hcs), fun y hy => ⟨(H.2 y hy).1, (H.2 y hy).2.trans ?_⟩⟩
        have he : (PSlice.nil : PSlice Tool).elems = [] := rfl
        simp only [he, and_true, true_and, List.not_mem_nil, false_implies, implies_true]
        constructor
        · rintro (⟨_, h⟩ | ⟨hv, h | h⟩)
          · exact .inl h
          · exact .inl h
          · exact .inr ⟨hv, h⟩
        · rintro (h | ⟨hv, h⟩)
          · by_cases hv : v < SpecVersion1_5
            · exact .inl ⟨hv, h⟩
            · exact .inr ⟨Int.not_lt.mp hv, .inl h⟩
          · exact .inr ⟨hv, .inr h⟩
      · rename_i hcs
        simp only [nn, not_or, not_not] at hcs
        cases ho
        simp [hcs]

theorem toolsChoice_unwritten (v : Int) (x : ToolsChoice) (h : ¬ x.XWritten) : x.XFits v := by
  simp only [ToolsChoice.XWritten, not_or, ne_eq, not_not] at h
  simp [ToolsChoice.XFits, h, PSlice.elems]


theorem xfit_distributionConstraints (v : Int) (n : String) (x : DistributionConstraints) : CFit v .distributionConstraints X.distributionConstraints n x True True := by
  refine (cf_struct (af_elem <| af_nil) (rf_none rfl) (.inr rfl)
    (kf_single (kf_plain (so_opt (xfit_string v _ _)) rfl <|
    kf_nil))).congr ?_
  simp only [DistributionConstraints.toP, and_true, true_and, and_assoc, implies_true, ne_eq, or_false, false_or]

theorem xfit_metadata (v : Int) (n : String) (x : Metadata) : CFit v .metadata X.metadata n x True (x.XFits v) := by
  refine (cf_struct (af_elem <| af_elem <| af_elem <| af_elem <| af_elem <| af_elem <| af_elem <| af_elem <| af_elem <| af_elem <| af_elem <| af_nil) (rf_none rfl) (.inr rfl)
    (kf_opt rfl (kf_plain (so_opt (xfit_string v _ _)) rfl <|
    kf_elem (bf_since (bf_nlist_empty) (np_opt (r := .lifecycles) rfl (fun h => by simp [h, PSlice.elems]) (lp_many (fun _ => rfl) (fun a _ => xfit_lifecycle v _ a))) rfl) rfl <|
    kf_elem (pw_opt (toolsChoice_unwritten v) (fun a _ => xfit_toolsChoice v _ a)) rfl <|
    kf_elem (np_opt (r := .authors) rfl (fun h => by simp [h, PSlice.elems]) (lp_many (fun _ => rfl) (fun a _ => xfit_organizationalContact v _ a))) rfl <|
    kf_elem (pp_opt (fun a _ => xfit_component v _ a)) rfl <|
    kf_pull (A := []) (B := [_]) (pt_empty (fun a _ => xfit_organizationalEntity v _ a)) (kf_none (pt_empty (fun a _ => xfit_organizationalEntity v _ a)) rfl <|
    kf_nil) rfl <|
    kf_elem (bf_since (pt_empty (fun a _ => xfit_organizationalEntity v _ a)) (pp_opt (fun a _ => xfit_organizationalEntity v _ a)) rfl) rfl <|
    kf_elem (bf_switch_same (pp_many (fun a _ => xfit_organizationalEntity v _ a)) (pp_opt (fun a _ => xfit_organizationalEntity v _ a))) rfl <|
    kf_elem (bf_switch_same (pp_many (fun a _ => xfit_organizationalEntity v _ a)) (pp_opt (fun a _ => xfit_organizationalEntity v _ a))) rfl <|
    kf_elem (bf_since (bf_slice_empty (xfit_licenses v _ _)) (sp_opt (fun h => by rw [h]; exact xfitsLicenses_nil v) (xfit_licenses v _ _)) rfl) rfl <|
    kf_elem (bf_since_t (bf_nlist_empty) (nt_opt (r := .properties) rfl (lt_many (fun a _ => xfit_property v _ a))) rfl) rfl <|
    kf_elem (bf_since_t (pt_empty (fun a _ => xfit_distributionConstraints v _ a)) (pt_opt (fun a _ => xfit_distributionConstraints v _ a)) rfl) rfl <|
    kf_nil))).congr ?_
  simp only [Metadata.XFits, Metadata.toP, and_true, true_and, and_assoc, implies_true, ne_eq, or_false, false_or]

theorem xfit_credits (v : Int) (n : String) (x : Credits) : CFit v .credits X.credits n x True (x.XFits v) := by
  refine (cf_struct (af_elem <| af_elem <| af_nil) (rf_none rfl) (.inr rfl)
    (kf_elem (np_opt (r := .targetsOrganizations) rfl (fun h => by simp [h, PSlice.elems]) (lp_many (fun _ => rfl) (fun a _ => xfit_organizationalEntity v _ a))) rfl <|
    kf_elem (np_opt (r := .creditsIndividuals) rfl (fun h => by simp [h, PSlice.elems]) (lp_many (fun _ => rfl) (fun a _ => xfit_organizationalContact v _ a))) rfl <|
    kf_nil)).congr ?_
  simp only [Credits.XFits, Credits.toP, and_true, true_and, and_assoc, implies_true, ne_eq, or_false, false_or]

theorem xfit_proofOfConcept (v : Int) (n : String) (x : ProofOfConcept) : CFit v .proofOfConcept X.proofOfConcept n x True True := by
  refine (cf_struct (af_elem <| af_elem <| af_elem <| af_nil) (rf_none rfl) (.inr rfl)
    (kf_plain (so_opt (xfit_string v _ _)) rfl <|
    kf_plain (so_opt (xfit_string v _ _)) rfl <|
    kf_plain (nt_opt (r := .proofOfConceptSupportingMaterial) rfl (lt_many (fun a _ => xfit_attachedText v _ a))) rfl <|
    kf_nil)).congr ?_
  simp only [ProofOfConcept.toP, and_true, true_and, and_assoc, implies_true, ne_eq, or_false, false_or]

theorem xfit_vulnerabilityAnalysis (v : Int) (n : String) (x : VulnerabilityAnalysis) : CFit v .analysis X.vulnerabilityAnalysis n x True (x.XFits v) := by
  refine (cf_struct (af_elem <| af_elem <| af_elem <| af_elem <| af_elem <| af_elem <| af_nil) (rf_none rfl) (.inr rfl)
    (kf_opt rfl (kf_plain (so_opt (xfit_string v _ _)) rfl <|
    kf_plain (so_opt (xfit_string v _ _)) rfl <|
    kf_plain (nt_opt (r := .analysisResponses) rfl (lt_many (fun a _ => xfit_string v _ a))) rfl <|
    kf_plain (so_opt (xfit_string v _ _)) rfl <|
    kf_elem (bf_since_t (so_empty (xemp_string _) (xfit_string v _ _)) (so_opt (xfit_string v _ _)) rfl) rfl <|
    kf_elem (bf_since_t (so_empty (xemp_string _) (xfit_string v _ _)) (so_opt (xfit_string v _ _)) rfl) rfl <|
    kf_nil))).congr ?_
  simp only [VulnerabilityAnalysis.XFits, VulnerabilityAnalysis.toP, and_true, true_and, and_assoc, implies_true, ne_eq, or_false, false_or]

theorem xfit_vulnerabilityRating (v : Int) (n : String) (x : VulnerabilityRating) : CFit v .rating X.vulnerabilityRating n x True True := by
  refine (cf_struct (af_elem <| af_elem <| af_elem <| af_elem <| af_elem <| af_elem <| af_nil) (rf_none rfl) (.inr rfl)
    (kf_plain (pt_opt (fun a _ => xfit_source v _ a)) rfl <|
    kf_plain (pt_opt (fun a _ => xfit_f64 v _ a)) rfl <|
    kf_plain (so_opt (xfit_string v _ _)) rfl <|
    kf_plain (so_opt (xfit_string v _ _)) rfl <|
    kf_plain (so_opt (xfit_string v _ _)) rfl <|
    kf_plain (so_opt (xfit_string v _ _)) rfl <|
    kf_nil)).congr ?_
  simp only [VulnerabilityRating.toP, and_true, true_and, and_assoc, implies_true, ne_eq, or_false, false_or]

theorem xfit_vulnerabilityReference (v : Int) (n : String) (x : VulnerabilityReference) : CFit v .referencesReference X.vulnerabilityReference n x True (x.XFits v) := by
  refine (cf_struct (af_elem <| af_elem <| af_nil) (rf_none rfl) (.inr rfl)
    (kf_elem (bf_switch_new (so_opt (xfit_string v _ _)) (so_el (xemp_string _) (xfit_string v _ _))) rfl <|
    kf_elem (bf_switch_new (pt_opt (fun a _ => xfit_source v _ a)) (pt_el (fun a _ => xfit_source v _ a))) rfl <|
    kf_nil)).congr ?_
  simp only [VulnerabilityReference.XFits, VulnerabilityReference.toP, and_true, true_and, and_assoc, implies_true, ne_eq, or_false, false_or]

theorem xfit_vulnerability (v : Int) (n : String) (x : Vulnerability) : CFit v .vulnerability X.vulnerability n x True (x.XFits v) := by
  refine (cf_struct (aa_ok rfl <| af_elem <| af_elem <| af_elem <| af_elem <| af_elem <| af_elem <| af_elem <| af_elem <| af_elem <| af_elem <| af_elem <| af_elem <| af_elem <| af_elem <| af_elem <| af_elem <| af_elem <| af_elem <| af_elem <| af_elem <| af_nil) (rf_none rfl) (.inr rfl)
    (kf_opt rfl (kf_plain (bf_plain_opt (xfit_string v _ _)) rfl <|
    kf_plain (pt_opt (fun a _ => xfit_source v _ a)) rfl <|
    kf_elem (np_opt (r := .references) rfl (fun h => by simp [h, PSlice.elems]) (lp_many (fun _ => rfl) (fun a _ => xfit_vulnerabilityReference v _ a))) rfl <|
    kf_plain (nt_opt (r := .ratings) rfl (lt_many (fun a _ => xfit_vulnerabilityRating v _ a))) rfl <|
    kf_plain (nt_opt (r := .cwes) rfl (lt_many (fun a _ => xfit_int v _ a))) rfl <|
    kf_plain (so_opt (xfit_string v _ _)) rfl <|
    kf_plain (so_opt (xfit_string v _ _)) rfl <|
    kf_plain (so_opt (xfit_string v _ _)) rfl <|
    kf_elem (bf_since_t (so_empty (xemp_string _) (xfit_string v _ _)) (so_opt (xfit_string v _ _)) rfl) rfl <|
    kf_elem (bf_since_t (pt_empty (fun a _ => xfit_proofOfConcept v _ a)) (pt_opt (fun a _ => xfit_proofOfConcept v _ a)) rfl) rfl <|
    kf_plain (nt_opt (r := .advisories) rfl (lt_many (fun a _ => xfit_advisory v _ a))) rfl <|
    kf_plain (so_opt (xfit_string v _ _)) rfl <|
    kf_plain (so_opt (xfit_string v _ _)) rfl <|
    kf_plain (so_opt (xfit_string v _ _)) rfl <|
    kf_elem (bf_since_t (so_empty (xemp_string _) (xfit_string v _ _)) (so_opt (xfit_string v _ _)) rfl) rfl <|
    kf_elem (pp_opt (fun a _ => xfit_credits v _ a)) rfl <|
    kf_elem (pw_opt (toolsChoice_unwritten v) (fun a _ => xfit_toolsChoice v _ a)) rfl <|
    kf_elem (pp_opt (fun a _ => xfit_vulnerabilityAnalysis v _ a)) rfl <|
    kf_elem (np_opt (r := .affects) rfl (fun h => by simp [h, PSlice.elems]) (lp_many (fun _ => rfl) (fun a _ => xfit_affects v _ a))) rfl <|
    kf_plain (nt_opt (r := .properties) rfl (lt_many (fun a _ => xfit_property v _ a))) rfl <|
    kf_nil))).congr ?_
  simp only [Vulnerability.XFits, Vulnerability.toP, and_true, true_and, and_assoc, implies_true, ne_eq, or_false, false_or]

theorem xfit_citation (v : Int) (n : String) (x : Citation) : CFit v .citation X.citation n x True (x.XFits v) := by
  refine (cf_struct (aa_ok rfl <| af_elem <| af_elem <| af_elem <| af_elem <| af_elem <| af_elem <| af_skip <| af_nil) (rf_none rfl) (.inr rfl)
    (kf_group (fs := [_, _]) (kf_choice (kf_single (kf_elem (bf_nlist_el (r := .citationTypePointers) rfl (ls_some xemp_string (fun a _ => xfit_string v _ a))) rfl <|
    kf_none (bf_nlist_empty) rfl <|
    kf_nil)) (kf_single (kf_none (bf_nlist_empty) rfl <|
    kf_elem (bf_nlist_el (r := .citationTypeExpressions) rfl (ls_some xemp_string (fun a _ => xfit_string v _ a))) rfl <|
    kf_nil))) rfl rfl <|
    kf_elem (so_el (xemp_string _) (xfit_string v _ _)) rfl <|
    kf_elem (pf_opt (fun a _ => xfit_bomReference_text v _ a)) rfl <|
    kf_plain (so_opt (xfit_string v _ _)) rfl <|
    kf_plain (so_opt (xfit_string v _ _)) rfl <|
    kf_nil)).congr ?_
  simp only [Citation.XFits, Citation.toP, and_true, true_and, and_assoc, implies_true, ne_eq, or_false, false_or]

theorem xfit_bom (v : Int) (n : String) (x : BOM) : CFit v .bom X.bom n x True (x.XFits v) := by
  refine (cf_struct (af_skip <| aa_ok rfl <| af_skip <| af_skip <| af_skip <| aa_since_oe rfl (emt_string _) <| aa_ok rfl <| af_elem <| af_elem <| af_elem <| af_elem <| af_elem <| af_elem <| af_elem <| af_elem <| af_elem <| af_elem <| af_elem <| af_elem <| af_elem <| af_skip <| af_nil) (rf_none rfl) (.inr rfl)
    (kf_elem (bf_since (pt_empty (fun a _ => xfit_metadata v _ a)) (pp_opt (fun a _ => xfit_metadata v _ a)) rfl) rfl <|
    kf_elem (bf_switch (bf_nlist_el (r := .components) rfl (lp_many (fun _ => rfl) (fun a _ => xfit_component v _ a))) (np_opt (r := .components) rfl (fun h => by simp [h, PSlice.elems]) (lp_many (fun _ => rfl) (fun a _ => xfit_component v _ a)))) rfl <|
    kf_elem (bf_since (bf_nlist_empty) (np_opt (r := .services) rfl (fun h => by simp [h, PSlice.elems]) (lp_many (fun _ => rfl) (fun a _ => xfit_service v _ a))) rfl) rfl <|
    kf_elem (bf_since (bf_nlist_empty) (np_opt (r := .externalReferences) rfl (fun h => by simp [h, PSlice.elems]) (lp_many (fun _ => rfl) (fun a _ => xfit_externalReference v _ a))) rfl) rfl <|
    kf_elem (bf_since (bf_nlist_empty) (np_opt (r := .dependencies) rfl (fun h => by simp [h, PSlice.elems]) (lp_many (fun _ => rfl) (fun a _ => xfit_dependency v _ a))) rfl) rfl <|
    kf_elem (bf_since (bf_nlist_empty) (np_opt (r := .compositions) rfl (fun h => by simp [h, PSlice.elems]) (lp_many (fun _ => rfl) (fun a _ => xfit_composition v _ a))) rfl) rfl <|
    kf_elem (bf_since_t (bf_nlist_empty) (nt_opt (r := .properties) rfl (lt_many (fun a _ => xfit_property v _ a))) rfl) rfl <|
    kf_elem (bf_since (bf_nlist_empty) (np_opt (r := .vulnerabilities) rfl (fun h => by simp [h, PSlice.elems]) (lp_many (fun _ => rfl) (fun a _ => xfit_vulnerability v _ a))) rfl) rfl <|
    kf_elem (bf_since (bf_nlist_empty) (np_opt (r := .annotations) rfl (fun h => by simp [h, PSlice.elems]) (lp_many (fun _ => rfl) (fun a _ => xfit_annotation v _ a))) rfl) rfl <|
    kf_elem (bf_since (bf_nlist_empty) (np_opt (r := .formulation) rfl (fun h => by simp [h, PSlice.elems]) (lp_many (fun _ => rfl) (fun a _ => xfit_formula v _ a))) rfl) rfl <|
    kf_elem (bf_since (pt_empty (fun a _ => xfit_declarations v _ a)) (pp_opt (fun a _ => xfit_declarations v _ a)) rfl) rfl <|
    kf_elem (bf_since (pt_empty (fun a _ => xfit_definitions v _ a)) (pp_opt (fun a _ => xfit_definitions v _ a)) rfl) rfl <|
    kf_elem (bf_since_absorb (bf_nlist_empty) (bf_nlist_opt (r := .citations) rfl (lp_some (fun _ => rfl) (fun a _ => xfit_citation v _ a))) rfl) rfl <|
    kf_nil)).congr ?_
  simp only [BOM.XFits, BOM.toP, and_true, true_and, and_assoc, implies_true, ne_eq, or_false, false_or]

end Verif
