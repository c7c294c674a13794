import Verif.Spec.XmlFitsConverted
import Verif.Proofs.FitsConverted

/-!
# `XFitsConverted` is `XFits` of the converted BOM
-/

namespace Verif

set_option linter.unusedSimpArgs false

open Spec (walk walkService step)

namespace XFitsConverted

open FitsConverted (map_all list_all map_none nil_elems elems_or none_or walk_all walkService_all map_ne legacy_elems)

/-- The version lies in one of eight bands; in each, every comparison of the conversion is decided. -/
theorem bands {v : Int} (hv : SpecVersion1_0 ≤ v) {P : Prop}
    (h0 : v < SpecVersion1_1 → v < SpecVersion1_2 → v < SpecVersion1_3 → v < SpecVersion1_4 → v < SpecVersion1_5 → v < SpecVersion1_6 → v < SpecVersion1_7 → ¬ SpecVersion1_1 ≤ v → ¬ SpecVersion1_2 ≤ v → ¬ SpecVersion1_3 ≤ v → ¬ SpecVersion1_4 ≤ v → ¬ SpecVersion1_5 ≤ v → ¬ SpecVersion1_6 ≤ v → ¬ SpecVersion1_7 ≤ v → P)
    (h1 : ¬ v < SpecVersion1_1 → v < SpecVersion1_2 → v < SpecVersion1_3 → v < SpecVersion1_4 → v < SpecVersion1_5 → v < SpecVersion1_6 → v < SpecVersion1_7 → SpecVersion1_1 ≤ v → ¬ SpecVersion1_2 ≤ v → ¬ SpecVersion1_3 ≤ v → ¬ SpecVersion1_4 ≤ v → ¬ SpecVersion1_5 ≤ v → ¬ SpecVersion1_6 ≤ v → ¬ SpecVersion1_7 ≤ v → P)
    (h2 : ¬ v < SpecVersion1_1 → ¬ v < SpecVersion1_2 → v < SpecVersion1_3 → v < SpecVersion1_4 → v < SpecVersion1_5 → v < SpecVersion1_6 → v < SpecVersion1_7 → SpecVersion1_1 ≤ v → SpecVersion1_2 ≤ v → ¬ SpecVersion1_3 ≤ v → ¬ SpecVersion1_4 ≤ v → ¬ SpecVersion1_5 ≤ v → ¬ SpecVersion1_6 ≤ v → ¬ SpecVersion1_7 ≤ v → P)
    (h3 : ¬ v < SpecVersion1_1 → ¬ v < SpecVersion1_2 → ¬ v < SpecVersion1_3 → v < SpecVersion1_4 → v < SpecVersion1_5 → v < SpecVersion1_6 → v < SpecVersion1_7 → SpecVersion1_1 ≤ v → SpecVersion1_2 ≤ v → SpecVersion1_3 ≤ v → ¬ SpecVersion1_4 ≤ v → ¬ SpecVersion1_5 ≤ v → ¬ SpecVersion1_6 ≤ v → ¬ SpecVersion1_7 ≤ v → P)
    (h4 : ¬ v < SpecVersion1_1 → ¬ v < SpecVersion1_2 → ¬ v < SpecVersion1_3 → ¬ v < SpecVersion1_4 → v < SpecVersion1_5 → v < SpecVersion1_6 → v < SpecVersion1_7 → SpecVersion1_1 ≤ v → SpecVersion1_2 ≤ v → SpecVersion1_3 ≤ v → SpecVersion1_4 ≤ v → ¬ SpecVersion1_5 ≤ v → ¬ SpecVersion1_6 ≤ v → ¬ SpecVersion1_7 ≤ v → P)
    (h5 : ¬ v < SpecVersion1_1 → ¬ v < SpecVersion1_2 → ¬ v < SpecVersion1_3 → ¬ v < SpecVersion1_4 → ¬ v < SpecVersion1_5 → v < SpecVersion1_6 → v < SpecVersion1_7 → SpecVersion1_1 ≤ v → SpecVersion1_2 ≤ v → SpecVersion1_3 ≤ v → SpecVersion1_4 ≤ v → SpecVersion1_5 ≤ v → ¬ SpecVersion1_6 ≤ v → ¬ SpecVersion1_7 ≤ v → P)
    (h6 : ¬ v < SpecVersion1_1 → ¬ v < SpecVersion1_2 → ¬ v < SpecVersion1_3 → ¬ v < SpecVersion1_4 → ¬ v < SpecVersion1_5 → ¬ v < SpecVersion1_6 → v < SpecVersion1_7 → SpecVersion1_1 ≤ v → SpecVersion1_2 ≤ v → SpecVersion1_3 ≤ v → SpecVersion1_4 ≤ v → SpecVersion1_5 ≤ v → SpecVersion1_6 ≤ v → ¬ SpecVersion1_7 ≤ v → P)
    (h7 : ¬ v < SpecVersion1_1 → ¬ v < SpecVersion1_2 → ¬ v < SpecVersion1_3 → ¬ v < SpecVersion1_4 → ¬ v < SpecVersion1_5 → ¬ v < SpecVersion1_6 → ¬ v < SpecVersion1_7 → SpecVersion1_1 ≤ v → SpecVersion1_2 ≤ v → SpecVersion1_3 ≤ v → SpecVersion1_4 ≤ v → SpecVersion1_5 ≤ v → SpecVersion1_6 ≤ v → SpecVersion1_7 ≤ v → P) : P := by
  simp only [SpecVersion1_0, SpecVersion1_1, SpecVersion1_2, SpecVersion1_3, SpecVersion1_4, SpecVersion1_5, SpecVersion1_6, SpecVersion1_7] at *
  by_cases c0 : v < 2
  · exact h0 (by omega) (by omega) (by omega) (by omega) (by omega) (by omega) (by omega) (by omega) (by omega) (by omega) (by omega) (by omega) (by omega) (by omega)
  by_cases c1 : v < 3
  · exact h1 (by omega) (by omega) (by omega) (by omega) (by omega) (by omega) (by omega) (by omega) (by omega) (by omega) (by omega) (by omega) (by omega) (by omega)
  by_cases c2 : v < 4
  · exact h2 (by omega) (by omega) (by omega) (by omega) (by omega) (by omega) (by omega) (by omega) (by omega) (by omega) (by omega) (by omega) (by omega) (by omega)
  by_cases c3 : v < 5
  · exact h3 (by omega) (by omega) (by omega) (by omega) (by omega) (by omega) (by omega) (by omega) (by omega) (by omega) (by omega) (by omega) (by omega) (by omega)
  by_cases c4 : v < 6
  · exact h4 (by omega) (by omega) (by omega) (by omega) (by omega) (by omega) (by omega) (by omega) (by omega) (by omega) (by omega) (by omega) (by omega) (by omega)
  by_cases c5 : v < 7
  · exact h5 (by omega) (by omega) (by omega) (by omega) (by omega) (by omega) (by omega) (by omega) (by omega) (by omega) (by omega) (by omega) (by omega) (by omega)
  by_cases c6 : v < 8
  · exact h6 (by omega) (by omega) (by omega) (by omega) (by omega) (by omega) (by omega) (by omega) (by omega) (by omega) (by omega) (by omega) (by omega) (by omega)
  exact h7 (by omega) (by omega) (by omega) (by omega) (by omega) (by omega) (by omega) (by omega) (by omega) (by omega) (by omega) (by omega) (by omega) (by omega)

theorem pmap_nil {α β : Type} {f : α → β} (p : PSlice α) : p.map f = .nil ↔ p = .nil := by
  cases p <;> simp [PSlice.map]
theorem nil_or {α : Type} {P : α → Prop} {p : PSlice α} : (p = .nil ∨ ∀ y ∈ p.elems, P y) ↔ ∀ y ∈ p.elems, P y := by
  constructor
  · rintro (rfl | h)
    · simp [PSlice.elems]
    · exact h
  · exact Or.inr

/-- Decides every comparison with a version, then simplifies. -/
syntax "xversions " term " using " "[" Lean.Parser.Tactic.simpLemma,* "]" : tactic
macro_rules
  | `(tactic| xversions $hv using [$ls,*]) => `(tactic|
      refine bands $hv ?_ ?_ ?_ ?_ ?_ ?_ ?_ ?_ <;> intro a1 a2 a3 a4 a5 a6 a7 b1 b2 b3 b4 b5 b6 b7 <;> first | contradiction |
        simp only [$ls,*, a1, a2, a3, a4, a5, a6, a7, b1, b2, b3, b4, b5, b6, b7, if_true, if_false, false_and, and_false, or_false,
          false_or, true_and, and_true, true_or, or_true, or_self, and_self, eq_self_iff_true, ne_eq, not_true_eq_false,
          not_false_eq_true, pmap_nil, map_all, list_all, map_none, nil_elems, elems_or, none_or, nil_or,
          PSlice.elems_map, implies_true, reduceCtorEq, List.not_mem_nil, Option.not_mem_none, List.map_eq_nil_iff,
          false_implies, true_implies, List.map_map, Function.comp_apply, forall_const, imp_false])

/-- Closes an equivalence of two conjunctions of the same members. -/
macro "regroup" : tactic =>
  `(tactic| (constructor <;> intro h <;> casesm* _ ∧ _ <;> (repeat' apply And.intro) <;> assumption))

variable {v : Int}

theorem contact (hv : SpecVersion1_0 ≤ v) (x : OrganizationalContact) :
    (convertOrganizationalContact v x).XFits v ↔ True := by
  xversions hv using [OrganizationalContact.XFits, convertOrganizationalContact]

/-- From version 1.5 on everything about a contact is declared. -/
theorem contact_true (h : SpecVersion1_5 ≤ v) (x : OrganizationalContact) : OrganizationalContact.XFits v x ↔ True := by
  simp [OrganizationalContact.XFits, h]

theorem entity_true (h : SpecVersion1_6 ≤ v) (x : OrganizationalEntity) : OrganizationalEntity.XFits v x ↔ True := by
  have h5 : SpecVersion1_5 ≤ v := by simp only [SpecVersion1_5, SpecVersion1_6] at *; omega
  simp [OrganizationalEntity.XFits, h, h5, contact_true]

theorem entity (hv : SpecVersion1_0 ≤ v) (x : OrganizationalEntity) :
    (convertOrganizationalEntity v x).XFits v ↔ True := by
  xversions hv using [OrganizationalEntity.XFits, convertOrganizationalEntity_bomRef, convertOrganizationalEntity_address,
    convertOrganizationalEntity_contact, contact hv, contact_true]

theorem extref (hv : SpecVersion1_0 ≤ v) (x : ExternalReference) :
    (convertExternalReference v x).XFits v ↔ True := by
  xversions hv using [ExternalReference.XFits, convertExternalReference_hashes, convertExternalReference_properties]

/-! ### Licenses -/

theorem party_true (h : SpecVersion1_6 ≤ v) (x : OrganizationalEntityOrContact) :
    x.XFits v ↔ (x.organization = none ∨ x.individual = none) := by
  have h5 : SpecVersion1_5 ≤ v := by simp only [SpecVersion1_5, SpecVersion1_6] at *; omega
  simp [OrganizationalEntityOrContact.XFits, entity_true h, contact_true h5, or_comm]

theorem party (hv : SpecVersion1_5 ≤ v) (x : OrganizationalEntityOrContact) :
    (convertParty v x).XFits v ↔ (x.organization = none ∨ x.individual = none) := by
  have h0 : SpecVersion1_0 ≤ v := by simp only [SpecVersion1_0, SpecVersion1_5] at *; omega
  simp [OrganizationalEntityOrContact.XFits, convertParty, entity h0, contact_true hv, or_comm]

theorem licensing (hv : SpecVersion1_5 ≤ v) (x : Licensing) :
    (convertLicensing v x).XFits v ↔ OneParty x.licensor ∧ OneParty x.licensee ∧ OneParty x.purchaser := by
  simp [Licensing.XFits, convertLicensing, party hv, OneParty]

theorem licensing_true (hv : SpecVersion1_6 ≤ v) (x : Licensing) :
    x.XFits v ↔ OneParty x.licensor ∧ OneParty x.licensee ∧ OneParty x.purchaser := by
  simp [Licensing.XFits, party_true hv, OneParty]

theorem licenseOf_fits (hv : SpecVersion1_1 ≤ v) (x : License) : (licenseOf v x).XFits v ↔ x.XFitsConverted v := by
  have h0 : SpecVersion1_0 ≤ v := by simp only [SpecVersion1_0, SpecVersion1_1] at *; omega
  xversions h0 using [License.XFits, licenseOf, licensing, licensing_true, License.XFitsConverted]

theorem licenses_nil (p : PSlice LicenseChoice) : convertLicenses v p = .nil ↔ p = .nil := by
  rw [convertLicenses_eq, pmap_nil]
  split
  · cases p <;> simp [convertLicenses1_0, storeOrNil]
    all_goals split <;> simp
  · rfl

theorem licenses_elems (h : SpecVersion1_1 ≤ v) (p : PSlice LicenseChoice) :
    (convertLicenses v p).elems = p.elems.map (licenseChoice v) := by
  rw [convertLicenses_eq, if_neg (by omega), PSlice.elems_map]

theorem licenses_elems_nil (h : SpecVersion1_1 ≤ v) (p : PSlice LicenseChoice) :
    (convertLicenses v p).elems = [] ↔ p.elems = [] := by
  rw [licenses_elems h, List.map_eq_nil_iff]

/-- For version 1.0 only licenses with an identifier or a name remain. -/
theorem licenses_first (h : v < SpecVersion1_1) (p : PSlice LicenseChoice) : XFitsLicenses v (convertLicenses v p).elems := by
  have h0 : ∀ x ∈ (convertLicenses1_0 p).elems, ∃ l, x.license = some l ∧ l.text = none ∧ l.url = "" := by
    have key : ∀ ls : List LicenseChoice, ∀ x ∈ (storeOrNil ((ls.map convertLicense1_0).filter fun c => c.license.isSome)).elems,
        ∃ l, x.license = some l ∧ l.text = none ∧ l.url = "" := by
      intro ls x hx
      have : x ∈ (ls.map convertLicense1_0).filter fun c => c.license.isSome := by
        unfold storeOrNil at hx
        split at hx
        · simp [PSlice.elems] at hx
        · exact hx
      obtain ⟨hm, hs⟩ := List.mem_filter.1 this
      obtain ⟨c, -, rfl⟩ := List.mem_map.1 hm
      unfold convertLicense1_0 at hs ⊢
      cases hl : c.license with
      | none => simp [hl] at hs
      | some l =>
        simp only [hl] at hs ⊢
        split
        · rename_i he; simp [he] at hs
        · exact ⟨_, rfl, rfl, rfl⟩
    cases p with
    | nil => simp [convertLicenses1_0, PSlice.elems]
    | nilSlice => exact key []
    | list ls => exact key ls
  have h1 : ∀ x ∈ (convertLicenses v p).elems, x.license ≠ none ∧ x.XFits v := by
    intro x hx
    rw [convertLicenses_eq, if_pos h, PSlice.elems_map] at hx
    obtain ⟨c, hc, rfl⟩ := List.mem_map.1 hx
    obtain ⟨l, hl, ht, hu⟩ := h0 c hc
    have h5 : v < SpecVersion1_5 := by simp only [SpecVersion1_1, SpecVersion1_5] at *; omega
    have h6 : v < SpecVersion1_6 := by simp only [SpecVersion1_1, SpecVersion1_6] at *; omega
    rw [licenseChoice_eq]
    simp [LicenseChoice.XFits, hl, License.XFits, licenseOf, h5, h6, ht, hu]
  cases he : (convertLicenses v p).elems with
  | nil => exact .inl rfl
  | cons x xs =>
    rw [he] at h1
    exact .inr ⟨fun x hx => (h1 x hx).2, .inr (.inl ⟨fun x hx => .inl (h1 x hx).1, .inr ⟨x, List.mem_cons_self .., (h1 x (List.mem_cons_self ..)).1⟩⟩)⟩

theorem licenses (p : PSlice LicenseChoice) :
    XFitsLicenses v (convertLicenses v p).elems ↔ XFitsLicensesConverted v p.elems := by
  by_cases h : v < SpecVersion1_1
  · have h1 : ¬ SpecVersion1_1 ≤ v := by omega
    simp [licenses_first h, XFitsLicensesConverted, h1]
  have h1 : SpecVersion1_1 ≤ v := by omega
  rw [licenses_elems h1]
  have hl : ∀ c : LicenseChoice, (∀ y ∈ (licenseChoice v c).license, License.XFits v y) ↔
      ∀ y ∈ c.license, License.XFitsConverted v y := by
    intro c
    rw [licenseChoice_eq]
    simp only [map_all, licenseOf_fits h1]
  have hd : ∀ c : LicenseChoice, (licenseChoice v c).XFits v ↔ (∀ y ∈ c.license, License.XFitsConverted v y) ∧
      (v < SpecVersion1_6 → c.license = none → c.expression ≠ "" → c.bomRef = "" ∧ c.acknowledgement.getD "" = "") := by
    intro c
    rw [LicenseChoice.XFits, hl]
    refine and_congr_right fun _ => ?_
    rw [licenseChoice_eq]
    by_cases h7 : v < SpecVersion1_7
    · have h7' : ¬ SpecVersion1_7 ≤ v := by omega
      simp only [h7, h7', if_true, Option.map_eq_none_iff, ne_eq, not_true_eq_false, false_and, or_false, true_and]
      by_cases h6 : v < SpecVersion1_6
      · have h6' : ¬ SpecVersion1_6 ≤ v := by omega
        simp [h6, h6']
      · have h6' : SpecVersion1_6 ≤ v := by omega
        simp [h6, h6']
    · have h7' : SpecVersion1_7 ≤ v := by omega
      have h6 : SpecVersion1_6 ≤ v := by simp only [SpecVersion1_6, SpecVersion1_7] at *; omega
      have h6' : ¬ v < SpecVersion1_6 := by omega
      simp [h7, h7', h6, h6', Classical.em]
  have he : ∀ c : LicenseChoice, (licenseChoice v c).license = none ↔ c.license = none := by
    intro c; rw [licenseChoice_eq]; simp
  have hx : ∀ c : LicenseChoice, (licenseChoice v c).expression = c.expression := by
    intro c; rw [licenseChoice_eq]
  have hn : ((p.elems.map (licenseChoice v)).filter (·.expression ≠ "")).length =
      (p.elems.filter (·.expression ≠ "")).length := by
    rw [List.filter_map, List.length_map]
    congr 1
    apply List.filter_congr
    intro c _
    simp only [Function.comp_apply, hx]
  simp only [XFitsLicenses, XFitsLicensesConverted, h1, list_all, List.map_eq_nil_iff, hd, ne_eq, he, hx, true_or, and_true,
    true_implies, true_and]
  simp only [ne_eq] at hn
  rw [hn]
  by_cases h7 : v < SpecVersion1_7
  · have h7' : ¬ SpecVersion1_7 ≤ v := by omega
    simp only [h7, h7', false_or, true_implies]
    constructor
    · rintro (h | ⟨h2, h3⟩)
      · simp [h]
      · exact ⟨fun x hx => (h2 x hx).1, fun h6 x hx => (h2 x hx).2 h6, h3⟩
    · rintro ⟨h2, h3, h4⟩
      exact .inr ⟨fun x hx => ⟨h2 x hx, fun h6 => h3 h6 x hx⟩, h4⟩
  · have h7' : SpecVersion1_7 ≤ v := by omega
    have h6' : ¬ v < SpecVersion1_6 := by simp only [SpecVersion1_6, SpecVersion1_7] at *; omega
    simp only [h7, h7', h6', false_implies, and_true, true_or]
    exact elems_or

/-! ### Evidence, model cards, cryptography -/

theorem licenses_written (p : PSlice LicenseChoice) : convertLicenses v p ≠ .nil ↔ p ≠ .nil := not_congr (licenses_nil p)

theorem firstIdentity_fits (e : Evidence) (P : EvidenceIdentity → Prop)
    (hP : ∀ i : EvidenceIdentity, P { i with concludedValue := "" } ↔ P i) (o : PSlice EvidenceOccurrence) (l : PSlice LicenseChoice) :
    let w := { e with identity := clearConcludedValue (firstIdentity e.identity), occurrences := o, licenses := l }.writtenIdentities.elems
    (w.length ≤ 1 ∧ ∀ y ∈ w, y.concludedValue = "" ∧ P y) ↔ ∀ y ∈ e.writtenIdentities.elems.head?, P y := by
  obtain ⟨i, _, _, _, _⟩ := e
  cases i with
  | none => simp [Evidence.writtenIdentities, clearConcludedValue, firstIdentity, PSlice.elems]
  | some ch =>
    obtain ⟨i, is⟩ := ch
    match is with
    | .nil => cases i <;> simp [Evidence.writtenIdentities, clearConcludedValue, firstIdentity, PSlice.elems, hP]
    | .nilSlice => cases i <;> simp [Evidence.writtenIdentities, clearConcludedValue, firstIdentity, PSlice.elems, hP]
    | .list [] => cases i <;> simp [Evidence.writtenIdentities, clearConcludedValue, firstIdentity, PSlice.elems, hP]
    | .list (x :: xs) => cases i <;> simp [Evidence.writtenIdentities, clearConcludedValue, firstIdentity, PSlice.elems, hP]

theorem unwritten_fits {e : Evidence} (h : ¬ e.XWritten) : e.XFits v := by
  simp only [Evidence.XWritten, not_or, ne_eq, Classical.not_not] at h
  obtain ⟨h1, h2, h3, h4, -⟩ := h
  have hw : e.writtenIdentities.elems = [] := by simp [Evidence.writtenIdentities, h1, PSlice.elems]
  by_cases h6 : v < SpecVersion1_6
  · simp [Evidence.XFits, hw, h2, h3, h4, h6, XFitsLicenses, nil_elems]
  · have h6' : SpecVersion1_6 ≤ v := by omega
    simp [Evidence.XFits, hw, h2, h3, h4, h6, h6', XFitsLicenses, nil_elems]

theorem unwritten_or {e : Evidence} : (¬ e.XWritten ∨ e.XFits v) ↔ e.XFits v :=
  ⟨fun h => h.elim unwritten_fits _root_.id, .inr⟩

theorem occurrence (x : EvidenceOccurrence) : (clearOccurrence x).XFits v ↔ x.location ≠ "" := by
  simp [EvidenceOccurrence.XFits, clearOccurrence]

theorem evidence_written (o : Option Evidence) :
    ((∀ y ∈ convertEvidence v o, ¬ Evidence.XWritten y) ∨ SpecVersion1_3 ≤ v ∧
      ∀ y ∈ convertEvidence v o, Evidence.XFits v y) ↔ (SpecVersion1_3 ≤ v → ∀ y ∈ convertEvidence v o, Evidence.XFits v y) := by
  by_cases h : SpecVersion1_3 ≤ v
  · simp only [h, true_and, true_implies]
    cases convertEvidence v o with
    | none => simp
    | some e => simpa using unwritten_fits
  · have h3 : v < SpecVersion1_3 := by omega
    cases o <;> simp [convertEvidence, h, h3]

theorem evidence (hv : SpecVersion1_0 ≤ v) (o : Option Evidence) :
    ((∀ y ∈ convertEvidence v o, ¬ Evidence.XWritten y) ∨ SpecVersion1_3 ≤ v ∧
      ∀ y ∈ convertEvidence v o, Evidence.XFits v y) ↔ ∀ e ∈ o, Evidence.XFitsConverted v e := by
  rw [evidence_written]
  cases o with
  | none => simp [convertEvidence]
  | some e =>
    have hi := fun (oc : PSlice EvidenceOccurrence) (l : PSlice LicenseChoice) => firstIdentity_fits e
      (fun i => i.field ≠ "" ∧ ∀ m ∈ i.methods.elems, EvidenceIdentityMethod.XFits v m) (fun _ => Iff.rfl) oc l
    simp only at hi
    have hc : ∀ y : EvidenceIdentity, ¬ SpecVersion1_6 ≤ v → (EvidenceIdentity.XFits v y ↔
        y.concludedValue = "" ∧ y.field ≠ "" ∧ ∀ m ∈ y.methods.elems, EvidenceIdentityMethod.XFits v m) := by
      intro y h6
      simp only [EvidenceIdentity.XFits, h6, or_false]
      exact and_left_comm
    have hw : ∀ w : List EvidenceIdentity, ¬ SpecVersion1_6 ≤ v →
        ((w = [] ∨ w.length ≤ 1 ∧ ∀ y ∈ w, EvidenceIdentity.XFits v y) ↔
        (w.length ≤ 1 ∧ ∀ y ∈ w, y.concludedValue = "" ∧ y.field ≠ "" ∧ ∀ m ∈ y.methods.elems, EvidenceIdentityMethod.XFits v m)) := by
      intro w h6
      rw [← and_congr_right fun _ => forall₂_congr fun y _ => hc y h6]
      exact ⟨fun h => h.elim (fun e => by simp [e]) _root_.id, .inr⟩
    have hnone : ∀ oc cs l cp, (Evidence.mk none oc cs l cp).writtenIdentities.elems = [] := fun _ _ _ _ => rfl
    have hsame : ∀ oc cs l cp, (Evidence.mk e.identity oc cs l cp).writtenIdentities.elems = e.writtenIdentities.elems :=
      fun _ _ _ _ => rfl
    xversions hv using [convertEvidence, Option.mem_some_iff, forall_eq', forall_eq, Evidence.XFitsConverted,
      Evidence.XFits, hnone, hsame, hw, hi, licenses, occurrence]
    all_goals regroup

/-- The number of texts that are written is at most one in each list. -/
theorem modelCard (hv : SpecVersion1_5 ≤ v) (x : MLModelCard) :
    (∀ y ∈ convertModelCard v (some x), MLModelCard.XFits v y) ↔ MLModelCard.XFitsConverted v x := by
  have h0 : SpecVersion1_0 ≤ v := by simp only [SpecVersion1_0, SpecVersion1_5] at *; omega
  xversions h0 using [convertModelCard, MLModelCard.XFits, MLModelCard.XFitsConverted, Option.map_some, Option.mem_some_iff,
    forall_eq', MLModelCardConsiderations.XFits]

theorem modelCard_or (o : Option MLModelCard) (hv : SpecVersion1_5 ≤ v) :
    (o = none ∨ ∀ y ∈ convertModelCard v o, MLModelCard.XFits v y) ↔ ∀ y ∈ o, MLModelCard.XFitsConverted v y := by
  cases o with
  | none => simp
  | some x => simp only [modelCard hv, reduceCtorEq, false_or, Option.mem_some_iff, forall_eq']

theorem algorithm (h7 : v < SpecVersion1_7) (x : CryptoAlgorithmProperties) :
    (convertAlgorithmProperties v x).XFits v ↔ True := by
  unfold convertAlgorithmProperties
  simp only [h7, if_true]
  split_ifs <;> simp [CryptoAlgorithmProperties.XFits]

theorem algorithm_latest (h7 : ¬ v < SpecVersion1_7) (x : CryptoAlgorithmProperties) :
    (convertAlgorithmProperties v x).XFits v ↔ x.XFits v := by
  unfold convertAlgorithmProperties
  simp only [h7, if_false]
  split_ifs <;> simp [CryptoAlgorithmProperties.XFits]

theorem certificate (h7 : v < SpecVersion1_7) (x : CertificateProperties) : (convertCertificateProperties v x).XFits v ↔
    x.signatureAlgorithmRef.val = "" ∧ x.subjectPublicKeyRef.val = "" := by
  simp [convertCertificateProperties, h7, CertificateProperties.XFits, nil_elems]

theorem material (h7 : v < SpecVersion1_7) (x : RelatedCryptoMaterialProperties) :
    (convertRelatedCryptoMaterial v x).XFits v ↔ x.algorithmRef.val = "" ∧ ∀ z ∈ x.securedBy, z.algorithmRef.val = "" := by
  simp [convertRelatedCryptoMaterial, h7, RelatedCryptoMaterialProperties.XFits, SecuredBy.XFits]

theorem protocol (h7 : v < SpecVersion1_7) (y : CryptoProtocolProperties) : (convertProtocolProperties v y).XFits v ↔
    y.cipherSuites.elems.length ≤ 1 ∧
      (∀ z ∈ y.cipherSuites.elems,
        z.name = "" ∧ (∀ w ∈ z.algorithms.elems, w.val = "") ∧ ∀ w ∈ z.identifiers.elems, w = "") ∧
      (∀ z ∈ y.ikev2TransformTypes, IKEv2TransformTypes.XFits v z) ∧
      ∀ z ∈ y.cryptoRefArray.elems, z.val = "" := by
  unfold convertProtocolProperties
  simp only [h7, if_true]
  split_ifs <;> simp [CryptoProtocolProperties.XFits, CipherSuite.XFits, PSlice.elems_map, and_assoc]

theorem protocol_latest (h7 : ¬ v < SpecVersion1_7) (y : CryptoProtocolProperties) :
    (convertProtocolProperties v y).XFits v ↔ y.XFits v := by
  unfold convertProtocolProperties
  simp only [h7, if_false]
  split_ifs <;> simp [CryptoProtocolProperties.XFits, PSlice.elems_map]

theorem crypto (hv : SpecVersion1_6 ≤ v) (x : CryptoProperties) :
    (∀ y ∈ convertCryptoProperties v (some x), CryptoProperties.XFits v y) ↔ CryptoProperties.XFitsConverted v x := by
  by_cases h7 : v < SpecVersion1_7
  · have h7' : ¬ SpecVersion1_7 ≤ v := by omega
    simp [convertCryptoProperties, CryptoProperties.XFitsConverted, CryptoProperties.XFits, h7, h7', hv, algorithm h7,
      certificate h7, material h7, protocol h7]
  · have h7' : SpecVersion1_7 ≤ v := by omega
    simp [convertCryptoProperties, CryptoProperties.XFitsConverted, CryptoProperties.XFits, h7, h7', algorithm_latest h7,
      protocol_latest h7, convertCertificateProperties, convertRelatedCryptoMaterial]

theorem crypto_or (o : Option CryptoProperties) (hv : SpecVersion1_6 ≤ v) :
    (o = none ∨ ∀ y ∈ convertCryptoProperties v o, CryptoProperties.XFits v y) ↔
      ∀ y ∈ o, CryptoProperties.XFitsConverted v y := by
  cases o with
  | none => simp
  | some x => simp only [crypto hv, reduceCtorEq, false_or, Option.mem_some_iff, forall_eq']

/-! ### Components -/

theorem components_iff' {p : PSlice Component} : XFitsComponents v p ↔ ∀ y ∈ p.elems, y.XFits v := by
  have h : ∀ l : List Component, XFitsComponentList v l ↔ ∀ y ∈ l, y.XFits v := by
    intro l
    induction l with
    | nil => simp [XFitsComponentList]
    | cons c cs ih => simp [XFitsComponentList, ih]
  cases p <;> simp [XFitsComponents, PSlice.elems, h]

theorem component_fits (c : Component) : c.XFits v ↔
    (c.bomRef = "" ∨ SpecVersion1_1 ≤ v) ∧
    (c.mimeType = "" ∨ SpecVersion1_2 ≤ v) ∧
    (c.supplier = none ∨ SpecVersion1_2 ≤ v ∧ (∀ y ∈ c.supplier, OrganizationalEntity.XFits v y)) ∧
    (c.manufacturer = none ∨ SpecVersion1_6 ≤ v ∧ (∀ y ∈ c.manufacturer, OrganizationalEntity.XFits v y)) ∧
    (c.authors = .nil ∨ c.author = "") ∧
    (c.authors = .nil ∨ SpecVersion1_6 ≤ v ∧ (∀ y ∈ c.authors.elems, OrganizationalContact.XFits v y)) ∧
    (c.author = "" ∨ SpecVersion1_2 ≤ v) ∧
    (c.versionRange = "" ∨ c.description = "" ∧ c.scope = "" ∧ c.hashes = .nil ∧ (c.licenses.elems = []) ∧ c.copyright = "" ∧ c.cpe = "" ∧ c.packageURL = "" ∧ (∀ y ∈ c.omniborID.elems, y = "") ∧ (∀ y ∈ c.swhid.elems, y = "") ∧ c.swid = none ∧ c.modified = none ∧ c.pedigree = none ∧ c.externalReferences = .nil ∧ c.properties = .nil ∧ c.components = .nil ∧ (∀ y ∈ c.evidence, ¬ Evidence.XWritten y) ∧ c.releaseNotes = none ∧ c.modelCard = none ∧ (c.data.elems = []) ∧ c.cryptoProperties = none ∧ c.tags = .nil ∧ c.isExternal = none ∧ c.patentAssertions = .nil) ∧
    (v < SpecVersion1_7 ∧ (v < SpecVersion1_4 ∧ c.version ≠ "" ∧ c.versionRange = "" ∨ SpecVersion1_4 ≤ v ∧ c.versionRange = "") ∨ SpecVersion1_7 ≤ v ∧ (c.version = "" ∧ c.versionRange = "" ∨ (c.version ≠ "" ∧ c.versionRange = "" ∨ c.version = "" ∧ c.versionRange ≠ ""))) ∧
    XFitsLicenses v c.licenses.elems ∧
    (c.patentAssertions = .nil ∨ c.cpe = "" ∧ c.packageURL = "" ∧ (∀ y ∈ c.omniborID.elems, y = "") ∧ (∀ y ∈ c.swhid.elems, y = "") ∧ c.swid = none ∧ c.modified = none ∧ c.pedigree = none ∧ c.externalReferences = .nil ∧ c.properties = .nil ∧ c.components = .nil ∧ (∀ y ∈ c.evidence, ¬ Evidence.XWritten y) ∧ c.releaseNotes = none ∧ c.modelCard = none ∧ (c.data.elems = []) ∧ c.cryptoProperties = none ∧ c.tags = .nil ∧ c.isExternal = none) ∧
    (c.patentAssertions = .nil ∨ SpecVersion1_7 ≤ v ∧ (∀ y ∈ c.patentAssertions.elems, PatentAssertion.XFits v y)) ∧
    ((∀ y ∈ c.omniborID.elems, y = "") ∨ SpecVersion1_6 ≤ v) ∧
    ((∀ y ∈ c.swhid.elems, y = "") ∨ SpecVersion1_6 ≤ v) ∧
    (c.swid = none ∨ SpecVersion1_2 ≤ v ∧ (∀ y ∈ c.swid, SWID.XFits v y)) ∧
    (SpecVersion1_1 ≤ v ∨ c.modified ≠ none) ∧
    (c.pedigree = none ∨ SpecVersion1_1 ≤ v ∧ ∀ p ∈ c.pedigree, XFitsPedigree v p) ∧
    (c.externalReferences = .nil ∨ SpecVersion1_1 ≤ v ∧ (∀ y ∈ c.externalReferences.elems, ExternalReference.XFits v y)) ∧
    (c.properties = .nil ∨ SpecVersion1_3 ≤ v) ∧
    (∀ d ∈ c.components.elems, d.XFits v) ∧
    ((∀ y ∈ c.evidence, ¬ Evidence.XWritten y) ∨ SpecVersion1_3 ≤ v ∧ (∀ y ∈ c.evidence, Evidence.XFits v y)) ∧
    (c.releaseNotes = none ∨ SpecVersion1_4 ≤ v) ∧
    (c.modelCard = none ∨ SpecVersion1_5 ≤ v ∧ (∀ y ∈ c.modelCard, MLModelCard.XFits v y)) ∧
    (v < SpecVersion1_7 ∧ ((c.data.elems = []) ∨ SpecVersion1_5 ≤ v ∧ (c.data.elems.length ≤ 1 ∧ ∀ y ∈ c.data.elems, ComponentData.XFits v y)) ∨ SpecVersion1_7 ≤ v ∧ (∀ y ∈ c.data.elems, ComponentData.XFits v y)) ∧
    (c.cryptoProperties = none ∨ SpecVersion1_6 ≤ v ∧ (∀ y ∈ c.cryptoProperties, CryptoProperties.XFits v y)) ∧
    (c.tags = .nil ∨ SpecVersion1_6 ≤ v) ∧
    c.isExternal = none := by
  obtain ⟨⟩ := c
  rename_i pedigree _ _ _ _ _ _ _ _ _ _ _ _ _
  cases pedigree <;> simp only [Component.XFits, components_iff', XFitsPedigreeOpt, Option.mem_some_iff, forall_eq', Option.not_mem_none, false_implies, implies_true]

theorem pedigree_fits (p : Pedigree Component) : XFitsPedigree v p ↔
    (∀ d ∈ p.ancestors.elems, d.XFits v) ∧ (∀ d ∈ p.descendants.elems, d.XFits v) ∧
    (∀ d ∈ p.variants.elems, d.XFits v) ∧ (p.patches = .nil ∨ SpecVersion1_2 ≤ v) := by
  cases p; simp only [XFitsPedigree, components_iff']

theorem scope_gone (h : SpecVersion1_2 ≤ v) (s : Scope) :
    (if supportsScope v s = true then s else "") = "" ↔ s ∉ ["required", "optional", "excluded"] := by
  have h0 : SpecVersion1_0 ≤ v := by simp only [SpecVersion1_0, SpecVersion1_2] at *; omega
  simp only [supportsScope, ScopeRequired, ScopeOptional, ScopeExcluded]
  by_cases h1 : s = "required"
  · subst h1; simp [h0]
  by_cases h2 : s = "optional"
  · subst h2; simp [h0]
  by_cases h3 : s = "excluded"
  · subst h3; simp [h]
  simp [h1, h2, h3]

theorem hashes_nil (p : PSlice Hash) : convertHashes v p = .nil ↔ p = .nil := by
  by_cases h : p = .nil
  · subst h; simp
  · rw [convertHashes_of_ne h]
    simp only [h, iff_false]
    exact storeOrNil_ne_nil _

theorem modelCard_none (o : Option MLModelCard) : convertModelCard v o = none ↔ o = none := by
  cases o <;> simp [convertModelCard]
theorem crypto_none (o : Option CryptoProperties) : convertCryptoProperties v o = none ↔ o = none := by
  cases o <;> simp [convertCryptoProperties]

theorem evidence_unwritten (h : SpecVersion1_6 ≤ v) (o : Option Evidence) :
    (∀ y ∈ convertEvidence v o, ¬ Evidence.XWritten y) ↔ ∀ y ∈ o, ¬ Evidence.XWritten y := by
  have h3 : ¬ v < SpecVersion1_3 := by simp only [SpecVersion1_3, SpecVersion1_6] at *; omega
  have h5 : ¬ v < SpecVersion1_5 := by simp only [SpecVersion1_5, SpecVersion1_6] at *; omega
  have h6 : ¬ v < SpecVersion1_6 := by omega
  cases o with
  | none => simp [convertEvidence]
  | some e => simp [convertEvidence, h3, h5, h6, Evidence.XWritten, licenses_nil]

theorem len_or {α : Type} {P : α → Prop} {l : List α} : (l = [] ∨ l.length ≤ 1 ∧ ∀ y ∈ l, P y) ↔ (l.length ≤ 1 ∧ ∀ y ∈ l, P y) :=
  ⟨fun h => h.elim (fun e => by simp [e]) _root_.id, .inr⟩

theorem version_set (s : String) : ¬ (if s = "" then "0.0.0" else s) = "" := by
  split <;> simp [*]

theorem pedigree {f : Component → Component} (h : SpecVersion1_2 ≤ v) (p : Pedigree Component) :
    XFitsPedigree v (Pedigree.mapComponents f p) ↔ ∀ d ∈ p.relatives, (f d).XFits v := by
  cases p
  simp only [Pedigree.mapComponents, pedigree_fits, pedigree_relatives_iff, PSlice.elems_map, list_all, h, or_true, and_true]

theorem pedigree_old {f : Component → Component} (p : Pedigree Component) :
    XFitsPedigree v (Pedigree.mapComponents f { p with patches := .nil }) ↔ ∀ d ∈ p.relatives, (f d).XFits v := by
  cases p
  simp only [Pedigree.mapComponents, pedigree_fits, pedigree_relatives_iff, PSlice.elems_map, list_all, true_or, and_true]

theorem modelCard_low (h : ¬ SpecVersion1_5 ≤ v) (x : MLModelCard) : MLModelCard.XFitsConverted v x ↔ True := by
  simp [MLModelCard.XFitsConverted, h]
theorem crypto_low (h : ¬ SpecVersion1_6 ≤ v) (x : CryptoProperties) : CryptoProperties.XFitsConverted v x ↔ True := by
  have h7 : ¬ SpecVersion1_7 ≤ v := by simp only [SpecVersion1_6, SpecVersion1_7] at *; omega
  simp [CryptoProperties.XFitsConverted, h, h7]

/-- In version 1.0 nothing is asked of a component. -/
theorem own_first (h : v < SpecVersion1_1) (c : Component) : c.XOwnFits v := by
  simp only [SpecVersion1_1] at h
  have h1 : ¬ SpecVersion1_1 ≤ v := by simp only [SpecVersion1_1]; omega
  have h2 : ¬ SpecVersion1_2 ≤ v := by simp only [SpecVersion1_2]; omega
  have h3 : ¬ SpecVersion1_3 ≤ v := by simp only [SpecVersion1_3]; omega
  have h5 : ¬ SpecVersion1_5 ≤ v := by simp only [SpecVersion1_5]; omega
  have h6 : ¬ SpecVersion1_6 ≤ v := by simp only [SpecVersion1_6]; omega
  have h7 : ¬ SpecVersion1_7 ≤ v := by simp only [SpecVersion1_7]; omega
  simp [Component.XOwnFits, XFitsLicensesConverted, Evidence.XFitsConverted, MLModelCard.XFitsConverted,
    CryptoProperties.XFitsConverted, h1, h2, h3, h5, h6, h7]

/-- A component with everything below it. -/
theorem component (hv : SpecVersion1_0 ≤ v) (c : Component) :
    (recurseComponent (componentConverter v) c).XFits v ↔ Component.XFitsConverted v c := by
  induction c using Component.induct with
  | h c ih =>
    unfold Component.XFitsConverted
    rw [walk_all, component_children_iff, recurseComponent_go', component_fits]
    have h1 : (∀ d ∈ c.components.elems, Component.XFits v (recurseComponent (componentConverter v) d)) ↔
        ∀ d ∈ c.components.elems, ∀ ss e, walk d ss = some e → e.XOwnFits v :=
      forall₂_congr fun d hd => ih d (List.mem_append_left _ hd)
    have h2 : (∀ p ∈ c.pedigree, ∀ d ∈ p.relatives, ∀ ss e, walk d ss = some e → e.XOwnFits v) ↔ (SpecVersion1_1 ≤ v →
        ∀ p ∈ c.pedigree, ∀ d ∈ p.relatives, Component.XFits v (recurseComponent (componentConverter v) d)) := by
      by_cases h : SpecVersion1_1 ≤ v
      · simp only [h, true_implies]
        refine forall₂_congr fun p hp => forall₂_congr fun d hd => (ih d (List.mem_append_right _ ?_)).symm
        rw [Option.mem_def.1 hp]; exact hd
      · simp only [h, false_implies, iff_true]
        exact fun _ _ _ _ _ e _ => own_first (by omega) e
    rw [← h1, h2]
    simp only [Component.mapChildren, Component.XOwnFits, componentConverter_evidence, evidence hv]
    xversions hv using [componentConverter_bomRef, componentConverter_mimeType, componentConverter_type, componentConverter_supplier, componentConverter_manufacturer, componentConverter_author, componentConverter_authors, componentConverter_publisher, componentConverter_group, componentConverter_name, componentConverter_version, componentConverter_description, componentConverter_scope, componentConverter_hashes, componentConverter_licenses, componentConverter_copyright, componentConverter_cpe, componentConverter_packageURL, componentConverter_omniborID, componentConverter_swhid, componentConverter_swid, componentConverter_modified, componentConverter_pedigree, componentConverter_externalReferences, componentConverter_properties, componentConverter_components, componentConverter_evidence, componentConverter_releaseNotes, componentConverter_modelCard, componentConverter_data, componentConverter_cryptoProperties, componentConverter_tags, componentConverter_isExternal, componentConverter_patentAssertions, componentConverter_versionRange, componentConverter_signature, pedigree, pedigree_old, version_set, len_or, scope_gone,
      hashes_nil, convertExternalReferences, extref hv, licenses, licenses_nil, licenses_elems_nil, crypto_or, modelCard_or,
      crypto_none, modelCard_none, crypto_low, modelCard_low, entity_true, contact_true, evidence_unwritten,
      Component.NothingAfterVersion, Component.NothingAfterPatents, List.length_nil, String.reduceEq]
    all_goals try regroup
    constructor
    · rintro ⟨ha, hr, hw, hl, hp, hq, hs, hpe, hc, he, hm, hd, hy, hx⟩
      refine ⟨⟨hs, hl, he, hm, hd, hy, ha, ?_, ?_, hx⟩, hc, hpe⟩
      · rcases hr with hr | hr
        · exact .inl hr
        · by_cases h : c.versionRange = ""
          · exact .inl h
          · have h' : c.version = "" := by simpa [h] using hw
            refine .inr ?_
            casesm* _ ∧ _
            refine ⟨?_, ?_, ?_, ?_, ?_, ?_, ?_⟩ <;> first | assumption | (repeat' constructor) <;> assumption
      · exact hp.imp_right fun h => ⟨h, hq⟩
    · rintro ⟨⟨hs, hl, he, hm, hd, hy, ha, hr, hp, hx⟩, hc, hpe⟩
      refine ⟨ha, ?_, ?_, hl, hp.imp_right And.left, ?_, hs, hpe, hc, he, hm, hd, hy, hx⟩
      · refine hr.imp_right fun h => ?_
        casesm* _ ∧ _
        refine ⟨?_, ?_, ?_, ?_, ?_, ?_⟩ <;> first | assumption | (repeat' constructor) <;> assumption
      · rcases hr with h | h
        · by_cases h' : c.version = "" <;> simp [h, h']
        · by_cases h' : c.versionRange = "" <;> simp [h.1, h']
      · rcases hp with h | h
        · simp [h, nil_elems]
        · exact h.2

/-! ### Services -/

theorem services_iff' {p : PSlice Service} : XFitsServices v p ↔ ∀ y ∈ p.elems, y.XFits v := by
  have h : ∀ l : List Service, XFitsServiceList v l ↔ ∀ y ∈ l, y.XFits v := by
    intro l
    induction l with
    | nil => simp [XFitsServiceList]
    | cons c cs ih => simp [XFitsServiceList, ih]
  cases p <;> simp [XFitsServices, PSlice.elems, h]

theorem service_fits (s : Service) : s.XFits v ↔
    (∀ y ∈ s.provider, OrganizationalEntity.XFits v y) ∧
    (s.trustZone = "" ∨ s.data = .nil ∧ (s.licenses.elems = []) ∧ s.externalReferences = .nil ∧ s.properties = .nil ∧ s.services = .nil ∧ s.releaseNotes = none ∧ s.tags = .nil) ∧
    (s.trustZone = "" ∨ SpecVersion1_5 ≤ v) ∧
    ((s.data.elems = []) ∨ SpecVersion1_5 ≤ v ∧ (∀ y ∈ s.data.elems, DataClassification.XFits v y)) ∧
    XFitsLicenses v s.licenses.elems ∧
    (s.patentAssertions = .nil ∨ s.externalReferences = .nil ∧ s.properties = .nil ∧ s.services = .nil ∧ s.releaseNotes = none ∧ s.tags = .nil) ∧
    (s.patentAssertions = .nil ∨ SpecVersion1_7 ≤ v ∧ (∀ y ∈ s.patentAssertions.elems, PatentAssertion.XFits v y)) ∧
    (∀ y ∈ s.externalReferences.elems, ExternalReference.XFits v y) ∧
    (s.properties = .nil ∨ SpecVersion1_3 ≤ v) ∧
    (∀ d ∈ s.services.elems, d.XFits v) ∧
    (s.releaseNotes = none ∨ SpecVersion1_4 ≤ v) ∧
    (s.tags = .nil ∨ SpecVersion1_6 ≤ v) := by
  cases s
  simp only [Service.XFits, services_iff']

/-- Below version 1.5 there may be no data at all. -/
theorem no_data {l : List DataClassification} : (l = [] ∧ ∀ y ∈ l, y.flow = "" → y.classification = "") ↔ l = [] := by
  constructor
  · exact And.left
  · rintro rfl; simp

theorem classifications {l : List DataClassification} :
    (∀ y ∈ l, DataClassification.XFits v y) ↔
    (∀ y ∈ l, y.flow = "" → y.classification = "") ∧ ∀ y ∈ l, ∀ z ∈ y.governance, DataGovernance.XFits v z := by
  simp only [DataClassification.XFits, forall_and]

theorem classifications_or {l : List DataClassification} {P : DataGovernance → Prop} :
    (l = [] ∨ (∀ y ∈ l, y.flow = "" → y.classification = "") ∧ ∀ y ∈ l, ∀ z ∈ y.governance, P z) ↔
    (∀ y ∈ l, y.flow = "" → y.classification = "") ∧ ∀ y ∈ l, ∀ z ∈ y.governance, P z := by
  refine ⟨?_, .inr⟩
  rintro (rfl | h)
  · simp
  · exact h

theorem classification_cleared {a b : String} :
    DataClassification.XFits v { flow := a, classification := b } ↔ (a = "" → b = "") := by
  simp [DataClassification.XFits]

theorem patents_or {M : Prop} {P : PatentAssertion → Prop} {p : PSlice PatentAssertion} :
    (p = .nil ∨ M ∧ ∀ y ∈ p.elems, P y) ↔ (p = .nil ∨ M) ∧ ∀ y ∈ p.elems, P y := by
  constructor
  · rintro (rfl | ⟨h, h'⟩)
    · simp [PSlice.elems]
    · exact ⟨.inr h, h'⟩
  · rintro ⟨h | h, h'⟩
    · exact .inl h
    · exact .inr ⟨h, h'⟩

theorem service (hv : SpecVersion1_2 ≤ v) (s : Service) :
    (recurseService (serviceConverter v) s).XFits v ↔ Service.XFitsConverted v s := by
  have hw : SpecVersion1_0 ≤ v := by simp only [SpecVersion1_0, SpecVersion1_2] at *; omega
  induction s using Service.induct with
  | h s ih =>
    unfold Service.XFitsConverted
    rw [walkService_all, recurseService_go', service_fits]
    have h1 : (∀ d ∈ s.services.elems, Service.XFits v (recurseService (serviceConverter v) d)) ↔
        ∀ d ∈ s.children, ∀ ss e, walkService d ss = some e → e.XOwnFits v :=
      forall₂_congr fun d hd => ih d hd
    rw [← h1]
    simp only [Service.mapChildren, Service.XOwnFits]
    simp only [patents_or]
    xversions hw using [serviceConverter_bomRef, serviceConverter_provider, serviceConverter_group, serviceConverter_name, serviceConverter_version, serviceConverter_description, serviceConverter_endpoints, serviceConverter_authenticated, serviceConverter_crossesTrustBoundary, serviceConverter_data, serviceConverter_licenses, serviceConverter_externalReferences, serviceConverter_properties, serviceConverter_services, serviceConverter_releaseNotes, serviceConverter_tags, serviceConverter_trustZone, serviceConverter_patentAssertions, serviceConverter_signature, convertDataClassifications,
      convertExternalReferences, extref hw, entity hw, entity_true, classifications, classifications_or, classification_cleared, no_data]
    all_goals regroup

/-! ### Tools -/

theorem tool (hv : SpecVersion1_0 ≤ v) (x : Tool) : (convertTool v x).XFits v ↔ True := by
  xversions hv using [Tool.XFits, convertTool_hashes, convertTool_externalReferences, convertExternalReferences, extref hv]

theorem toolService_fits (hv : SpecVersion1_0 ≤ v) (s : Service) :
    (toolService v s).XFits v ↔ Service.XFits v { s with provider := none } := by
  rw [service_fits, service_fits, toolService]
  cases h : s.provider with
  | none => simp
  | some p => simp [entity hv]

theorem tools (hv : SpecVersion1_0 ≤ v) (x : ToolsChoice) :
    (convertTools v x).XFits v ↔ ToolsChoice.XFitsConverted v x := by
  by_cases h : v < SpecVersion1_5
  · have h5 : ¬ SpecVersion1_5 ≤ v := by omega
    rw [convertTools_old h]
    simp [ToolsChoice.XFits, ToolsChoice.XFitsConverted, h5, PSlice.elems_map, list_all, tool hv]
  · have h5 : SpecVersion1_5 ≤ v := by omega
    rw [convertTools_new h]
    simp only [ToolsChoice.XFits, ToolsChoice.XFitsConverted, h5, PSlice.elems_map, list_all,
      tool hv, pmap_nil, toolService_fits hv, true_implies, implies_true, true_and]
    refine ⟨?_, .inr⟩
    rintro (⟨h1, h2⟩ | h)
    · simp [h1, h2, nil_elems]
    · exact h

/-! ### The rest -/

theorem credits_true (h : SpecVersion1_6 ≤ v) (x : Credits) : Credits.XFits v x ↔ True := by
  have h5 : SpecVersion1_5 ≤ v := by simp only [SpecVersion1_5, SpecVersion1_6] at *; omega
  simp [Credits.XFits, entity_true h, contact_true h5]

theorem credits (hv : SpecVersion1_0 ≤ v) (x : Credits) : Credits.XFits v
    { x with
      organizations := x.organizations.map (convertOrganizationalEntity v)
      individuals := x.individuals.map (convertOrganizationalContact v) } ↔ True := by
  simp [Credits.XFits, PSlice.elems_map, entity hv, contact hv]

theorem analysis_true (h : SpecVersion1_5 ≤ v) (x : VulnerabilityAnalysis) : VulnerabilityAnalysis.XFits v x ↔ True := by
  simp [VulnerabilityAnalysis.XFits, h]

theorem analysis (x : VulnerabilityAnalysis) : VulnerabilityAnalysis.XFits v
    { x with firstIssued := "", lastUpdated := "" } ↔ True := by
  simp [VulnerabilityAnalysis.XFits]

theorem vulnerability (hv : SpecVersion1_0 ≤ v) (x : Vulnerability) :
    (convertVulnerability v x).XFits v ↔ Vulnerability.XFitsConverted v x := by
  xversions hv using [Vulnerability.XFits, convertVulnerability_bomRef, convertVulnerability_id, convertVulnerability_source, convertVulnerability_references, convertVulnerability_ratings, convertVulnerability_cwes, convertVulnerability_description, convertVulnerability_detail, convertVulnerability_recommendation, convertVulnerability_workaround, convertVulnerability_proofOfConcept, convertVulnerability_advisories, convertVulnerability_created, convertVulnerability_published, convertVulnerability_updated, convertVulnerability_rejected, convertVulnerability_credits, convertVulnerability_tools, convertVulnerability_analysis, convertVulnerability_affects, convertVulnerability_properties, credits hv, credits_true, analysis,
    analysis_true, tools hv, Vulnerability.XFitsConverted]

theorem licenses_or {l : List LicenseChoice} :
    (l = [] ∨ XFitsLicensesConverted v l) ↔ XFitsLicensesConverted v l := by
  refine ⟨?_, .inr⟩
  rintro (rfl | h)
  · simp [XFitsLicensesConverted]
  · exact h

theorem metadata (hv : SpecVersion1_2 ≤ v) (x : Metadata) :
    (convertMetadata v x).XFits v ↔ Metadata.XFitsConverted v x := by
  have hw : SpecVersion1_0 ≤ v := by simp only [SpecVersion1_0, SpecVersion1_2] at *; omega
  xversions hw using [Metadata.XFits, convertMetadata_timestamp, convertMetadata_lifecycles, convertMetadata_tools, convertMetadata_authors, convertMetadata_component, convertMetadata_manufacture, convertMetadata_manufacturer, convertMetadata_supplier, convertMetadata_licenses, convertMetadata_properties, convertMetadata_distributionConstraints, tools hw, contact hw, entity hw, component hw, licenses,
    licenses_nil, licenses_elems_nil, licenses_or, entity_true, contact_true, Metadata.XFitsConverted]

theorem composition (hv : SpecVersion1_0 ≤ v) (x : Composition) : (convertComposition v x).XFits v ↔ True := by
  unfold convertComposition
  simp only
  split_ifs <;> xversions hv using [Composition.XFits]

theorem dependency_true (h : SpecVersion1_6 ≤ v) (x : Dependency) : Dependency.XFits v x ↔ True := by
  simp [Dependency.XFits, h]

theorem dependency (x : Dependency) : Dependency.XFits v { x with provides := .nil } ↔ True := by
  simp [Dependency.XFits, nil_elems]

theorem annotator (h5 : SpecVersion1_5 ≤ v) (h6 : v < SpecVersion1_6) (x : Annotator) :
    (convertAnnotator v x).XFits v ↔ x.XFitsConverted v := by
  have h2 : SpecVersion1_2 ≤ v := by simp only [SpecVersion1_2, SpecVersion1_5] at *; omega
  have h0 : SpecVersion1_0 ≤ v := by simp only [SpecVersion1_0, SpecVersion1_5] at *; omega
  have h6' : ¬ SpecVersion1_6 ≤ v := by omega
  obtain ⟨o, i, c, s⟩ := x
  cases o <;> cases i <;> cases c <;> cases s <;>
    simp [Annotator.XFits, Annotator.XFitsConverted, convertAnnotator, entity h0, contact_true h5, service h2, h6, h6']

theorem annotator_new (h6 : SpecVersion1_6 ≤ v) (x : Annotator) : x.XFits v ↔ x.XFitsConverted v := by
  have h5 : SpecVersion1_5 ≤ v := by simp only [SpecVersion1_5, SpecVersion1_6] at *; omega
  have h6' : ¬ v < SpecVersion1_6 := by omega
  obtain ⟨o, i, c, s⟩ := x
  cases o <;> cases i <;> cases c <;> cases s <;>
    simp [Annotator.XFits, Annotator.XFitsConverted, entity_true h6, contact_true h5, h6, h6']

theorem annotations (h5 : SpecVersion1_5 ≤ v) (p : PSlice Annotation) :
    (∀ y ∈ (convertAnnotations v p).elems, Annotation.XFits v y) ↔
    ∀ y ∈ p.elems, (∃ a ∈ y.annotator, Annotator.XFitsConverted v a) ∧ y.timestamp ≠ "" ∧ y.text ≠ "" := by
  by_cases h : v < SpecVersion1_6
  · simp only [convertAnnotations, if_pos h, PSlice.elems_map, list_all, Annotation.XFits]
    refine forall₂_congr fun y _ => and_congr ?_ Iff.rfl
    cases y.annotator <;> simp [annotator h5 h]
  · simp only [convertAnnotations, if_neg h, Annotation.XFits, annotator_new (Int.not_lt.mp h)]

theorem annotations_nil (p : PSlice Annotation) : convertAnnotations v p = .nil ↔ p = .nil := by
  unfold convertAnnotations
  split <;> simp [pmap_nil]

theorem definitions_cleared (x : Definitions) : Definitions.XFits v { x with patents := .nil } ↔
    ∀ d ∈ x.standards.elems, StandardDefinition.XFits v d := by
  simp [Definitions.XFits]

theorem definitions (x : Definitions) : ((∀ d ∈ x.standards.elems, StandardDefinition.XFits v d) ∧ Definitions.XFits v x) ↔
    Definitions.XFits v x := by
  simp only [Definitions.XFits]
  exact ⟨fun h => h.2, fun h => ⟨h.1, h⟩⟩

theorem bom (hv : SpecVersion1_0 ≤ v) (x : BOM) : (convert v x).XFits v ↔ BOM.XFitsConverted v x := by
  xversions hv using [BOM.XFits, convert_xmlName, convert_xmlns, convert_jsonSchema, convert_bomFormat, convert_specVersion, convert_serialNumber, convert_version, convert_metadata, convert_components, convert_services, convert_externalReferences, convert_dependencies, convert_compositions, convert_properties, convert_vulnerabilities, convert_annotations, convert_formulation, convert_declarations, convert_definitions, convert_citations, convert_signature, BOM.XFitsConverted, metadata, component hv, service, extref hv,
    convertExternalReferences, convertCompositions, composition hv, convertVulnerabilities, vulnerability hv,
    dependency, dependency_true, annotations, annotations_nil, definitions_cleared, definitions,
    and_assoc]

end XFitsConverted

end Verif
