import Verif.Proofs.Conforming
import Verif.Proofs.XListedConverted
import Verif.Proofs.XFitsConverted
import Verif.Xml.PlainLaws
import Verif.Proofs.PreserveXml

/-!
# What conforms to the XML schema of a version is settled, up to what `XKept` excludes
-/

namespace Verif

set_option linter.unusedSimpArgs false
set_option linter.unusedSectionVars false

open Spec (walk walkService Known Late hashAlgorithmSince componentTypeSince scopeSince externalReferenceTypeSince
  aggregateSince scoringMethodSince cryptoPrimitiveSince protocolTypeSince)

namespace XConforming

open XListedConverted (lists_iff component_listed service_listed)
open XFitsConverted (component_fits service_fits pedigree_fits)
open FitsConverted (walk_all walkService_all)
open Conforming (not_late not_late_empty)

variable [XFloatIO] {v : Int}

/-- Values enumerated in XML are in the tables of `Spec.Schema`, from the version `w` on. -/
theorem known_of_lists {t : Option (List (Int × List String))} {gs : List (Int × List String)} (h : t = some gs) {w : Int}
    {table : List (String × Int)} (ht : ∀ g ∈ gs, ∀ s ∈ g.2, ∃ e ∈ table, e.1 = s ∧ (e.2 ≤ g.1 ∨ e.2 ≤ w))
    (hv : w ≤ v) {s : String} (hs : ∀ gs, t = some gs → ∃ g ∈ gs, g.1 ≤ v ∧ s ∈ g.2) : Known table v s := by
  obtain ⟨g, hg, hl, hs⟩ := hs gs h
  obtain ⟨⟨s', n⟩, he, rfl, hn⟩ := ht g hg s hs
  refine ⟨n, he, ?_⟩
  simp only at hn
  rcases hn with hn | hn <;> omega

/-! ### Leaves -/

theorem nil_of {α : Type} {P : α → Prop} {p : PSlice α} (h : p.XEach P) (he : p.elems = []) : p = .nil := by
  cases p with
  | nil => rfl
  | nilSlice => exact h.elim
  | list l => exact absurd he h.1

theorem nil_of_all {α : Type} {P Q : α → Prop} {p : PSlice α} (h : p.XEach P) (hpq : ∀ y, P y → ¬ Q y)
    (he : ∀ y ∈ p.elems, Q y) : p = .nil := by
  cases p with
  | nil => rfl
  | nilSlice => exact h.elim
  | list l =>
    match l, h with
    | [], h => exact absurd rfl h.1
    | a :: l, h => exact absurd (he a List.mem_cons_self) (hpq a (h.2 a List.mem_cons_self))

theorem each {α : Type} {P : α → Prop} {p : PSlice α} (h : p.XEach P) : ∀ y ∈ p.elems, P y := by
  cases p with
  | nil => intro y hy; cases hy
  | nilSlice => exact h.elim
  | list l => exact h.2

theorem entity {x : OrganizationalEntity} (h : x.XFits v) : x.Settled v := h

theorem composition (hv : SpecVersion1_3 ≤ v) {x : Composition} (h : x.XFits v) (hl : x.XListed v) : x.Settled v :=
  ⟨h.1, h.2, not_late (by decide +kernel) (known_of_lists rfl (by decide +kernel) hv hl)⟩

theorem reference (hv : SpecVersion1_1 ≤ v) {x : ExternalReference} (h : x.XFits v) (hl : x.XListed v) : x.Settled v :=
  ⟨fun hlate => absurd hlate (not_late (by decide +kernel) (known_of_lists rfl (by decide +kernel) hv hl.2)), h.1, h.2⟩

theorem hashes (hv : SpecVersion1_0 ≤ v) {hs : PSlice Hash} (hp : hs.XEach Hash.XPlain)
    (hl : ∀ y ∈ hs.elems, Hash.XListed v y) : HashesSettled v hs :=
  ⟨fun h => by rw [h] at hp; exact hp.1 rfl, fun y hy => known_of_lists rfl (by decide +kernel) hv (hl y hy)⟩

theorem party {x : OrganizationalEntityOrContact} (h : x.XFits v) : x.Settled v := by
  intro y hy
  rcases h with h | h
  · exact entity (h.1 y hy)
  · rw [h.1] at hy; cases hy

theorem licensing {x : Licensing} (h : x.XFits v) : x.Settled v :=
  ⟨fun y hy => party (h.1 y hy), fun y hy => party (h.2.1 y hy), fun y hy => party (h.2.2 y hy)⟩

theorem license {x : License} (h : x.XFits v) : x.Settled v :=
  ⟨h.1, h.2.1, h.2.2.2.2.1.imp_right fun h => ⟨h.1, fun y hy => licensing (h.2 y hy)⟩, h.2.2.2.2.2⟩

theorem choice {x : LicenseChoice} (hp : x.XPlain) (h : x.XFits v) : x.Settled v := by
  rcases hp with ⟨l, -, rfl⟩ | hp
  · exact ⟨fun y hy => license (h.1 y hy), .inl rfl, .inl rfl, .inl rfl⟩
  · exact ⟨fun y hy => license (h.1 y hy), (h.2 hp.1 hp.2.1).imp And.left And.right, .inl hp.2.2.2.2.2.2.1,
      .inl hp.2.2.2.2.2.2.2⟩

theorem licenses_fits {l : List LicenseChoice} (h : XFitsLicenses v l) : ∀ y ∈ l, y.XFits v := by
  rcases h with rfl | h
  · intro y hy; cases hy
  · exact h.1

theorem named {ls : PSlice LicenseChoice} (h : ∀ x ∈ ls.elems, LicenseChoice.XWritable x) :
    ∀ x ∈ ls.elems, ∀ l ∈ x.license, l.id ≠ "" ∨ l.name ≠ "" := by
  intro x hx l hl
  have h := (h x hx l hl).2
  by_cases hi : l.id = ""
  · exact .inr fun hn => h ⟨fun _ => hn, fun _ => hi⟩
  · exact .inl hi

theorem licenses {ls : PSlice LicenseChoice} (hp : ls.XEach LicenseChoice.XPlain) (h : XFitsLicenses v ls.elems)
    (k : v < SpecVersion1_1 → ∀ x ∈ ls.elems, ∀ l ∈ x.license, l.id ≠ "" ∨ l.name ≠ "") : LicensesSettled v ls := by
  · refine ⟨?_, fun y hy => choice (each hp y hy) (licenses_fits h y hy)⟩
    by_cases hv : SpecVersion1_1 ≤ v
    · exact .inl hv
    · refine .inr ⟨fun e => by rw [e] at hp; exact hp.1 rfl, fun x hx => ?_⟩
      rcases h with e | ⟨hf, h⟩
      · rw [e] at hx; cases hx
      · have h7 : ¬ SpecVersion1_7 ≤ v := by simp only [SpecVersion1_1, SpecVersion1_7] at *; omega
        have h' := (h.resolve_left h7).resolve_right fun h => hv h.1
        rcases each hp x hx with ⟨l, -, rfl⟩ | hx'
        · have := hf _ hx
          exact ⟨rfl, l, rfl, k (by omega) _ hx l rfl, (this.1 l rfl).2.2.1.resolve_right hv,
            (this.1 l rfl).2.2.2.1.resolve_right hv⟩
        · exact (h'.1 x hx).elim (fun e => absurd hx'.1 e) fun e => absurd e hx'.2.1

theorem identities_ne {x : Evidence} (hp : x.XPlain) {i : EvidenceIdentityChoice} (hi : i ∈ x.identity) :
    x.writtenIdentities.elems ≠ [] := by
  have hi : x.identity = some i := hi
  obtain ⟨h1, h2, h3⟩ := hp.2.1 i hi
  unfold Evidence.writtenIdentities
  rw [hi]
  obtain ⟨a, b⟩ := i
  simp only at h1 h2 h3
  subst h1
  cases b with
  | nil => exact absurd rfl h2
  | nilSlice => exact h3.elim
  | list l => exact h3.1

theorem evidence (hv : SpecVersion1_3 ≤ v) {x : Evidence} (hp : x.XPlain) (h : x.XFits v) :
    x.Settled v ↔ (v = SpecVersion1_5 → x.identity = none) := by
  constructor
  · rintro ⟨-, k, -⟩ rfl
    rcases k with k | ⟨-, k⟩
    · exact k
    · cases hi : x.identity with
      | none => rfl
      | some i =>
        rcases k i hi with k | k
        · exact absurd k (by decide)
        · exact absurd k.1 (hp.2.1 i hi).2.1
  · intro k
    have h1 : ¬ v < SpecVersion1_1 := by simp only [SpecVersion1_1, SpecVersion1_3] at *; omega
    refine ⟨hv, ?_, h.2.1.imp_right fun h => ⟨h.1, fun y hy => .inl ⟨(h.2 y hy).1, (h.2 y hy).2.1, (h.2 y hy).2.2.1, (h.2 y hy).2.2.2.1⟩⟩,
      h.2.2.1.imp_right And.left, fun _ => licenses hp.2.2.2.2.1 h.2.2.2 fun h => absurd h h1⟩
    cases hi : x.identity with
    | none => exact .inl rfl
    | some i =>
      have hne := identities_ne hp hi
      rcases h.1 with ⟨h6, h'⟩ | ⟨h6, -⟩
      · have h5 := (h'.resolve_left hne).1
        have : v = SpecVersion1_5 := by simp only [SpecVersion1_5, SpecVersion1_6] at *; omega
        rw [k this] at hi
        cases hi
      · exact .inr ⟨by simp only [SpecVersion1_5, SpecVersion1_6] at *; omega, fun y _ => .inl h6⟩

theorem card (hv : SpecVersion1_5 ≤ v) {x : MLModelCard} (h : x.XFits v) : x.Settled v := by
  refine ⟨hv, ?_⟩
  by_cases h6 : SpecVersion1_6 ≤ v
  · exact .inr h6
  · exact .inl fun y hy => (h.2 y hy).2.2.2.2.resolve_right fun h' => h6 h'.1

theorem algorithm (hv : SpecVersion1_6 ≤ v) {x : CryptoAlgorithmProperties} (h : x.XFits v) (hl : x.XListed v) :
    x.Settled v := by
  refine ⟨h.2.1, h.2.2, ?_⟩
  by_cases he : x.primitive = ""
  · rw [he]; exact not_late_empty (by decide +kernel)
  · exact not_late (by decide +kernel) (known_of_lists rfl (by decide +kernel) hv (hl.1 he))

theorem certificate {x : CertificateProperties} (hp : x.XPlain) (h : x.XFits v) : x.Settled v := by
  obtain ⟨h1, -, -, h2, h3, h4, -, h5, -, h6, -, h7, -, h8, -, h9, h10, h11⟩ := h
  refine ⟨h1, h2, h3, h4.imp_left fun h => ?_, h10.imp_right And.left, h11, h5, h6, h7, h8, h9⟩
  refine nil_of_all hp.2.2.2.2.2.2.2.2.2.2.2.1 (fun y hy => ?_) h
  rcases hy with ⟨p, -, -, -, rfl⟩ | ⟨q, -, -, -, rfl⟩ <;> simp [CertificateState.XWritten]

theorem related {x : RelatedCryptoMaterialProperties} (h : x.XFits v) : x.Settled v :=
  ⟨h.2.2.1, h.2.2.2⟩

theorem protocol (hv : SpecVersion1_6 ≤ v) {x : CryptoProtocolProperties} (h : x.XFits v) (hl : x.XListed v) :
    x.Settled v := by
  refine ⟨?_, .inl h.2.2.2, fun y hy => ⟨.inl (h.1.2 y hy).2.2.2.1, .inl (h.1.2 y hy).2.2.2.2⟩⟩
  by_cases he : x.type = ""
  · rw [he]; exact not_late_empty (by decide +kernel)
  · exact not_late (by decide +kernel) (known_of_lists rfl (by decide +kernel) hv (hl he))

theorem crypto (hv : SpecVersion1_6 ≤ v) {x : CryptoProperties} (hp : x.XPlain) (h : x.XFits v) (hl : x.XListed v) :
    x.Settled v :=
  ⟨hv, fun y hy => algorithm hv (h.1 y hy) (hl.2.1 y hy), fun y hy => certificate (hp.2.2.1 y hy) (h.2.1 y hy),
    fun y hy => related (h.2.2.1 y hy), fun y hy => protocol hv (h.2.2.2 y hy) (hl.2.2.2.2 y hy)⟩

/-! ### Components -/

/-- What is used of the values of a component. -/
theorem component_plain {c : Component} (h : c.XPlain) :
    c.hashes.XEach Hash.XPlain ∧ c.licenses.XEach LicenseChoice.XPlain ∧ c.omniborID.XEach (fun y => y ≠ "" ∧ XString y) ∧
    c.swhid.XEach (fun y => y ≠ "" ∧ XString y) ∧ (∀ p ∈ c.pedigree, XPlainPedigree p) ∧
    (∀ d ∈ c.components.elems, d.XPlain) ∧ (∀ y ∈ c.evidence, Evidence.XPlain y) ∧ c.data.XEach ComponentData.XPlain ∧
    (∀ y ∈ c.cryptoProperties, CryptoProperties.XPlain y) := by
  cases c
  rename_i pedigree _ _ _ _ _ _ _ _ _ _ _ _ _
  simp only [Component.XPlain] at h
  obtain ⟨-, -, -, -, -, -, -, -, -, -, -, -, -, h1, h2, -, -, -, h3, h4, -, h5, -, -, h6, h7, -, -, h8, h9, -⟩ := h
  refine ⟨h1, h2, h3, h4, ?_, each ((xplainComponents_iff _).1 h6), h7, h8, h9⟩
  cases pedigree <;> simp_all [XPlainPedigreeOpt]

theorem plain_children {c : Component} (h : c.XPlain) : ∀ d ∈ c.children, d.XPlain := by
  rw [component_children_iff]
  obtain ⟨-, -, -, -, hp, hc, -⟩ := component_plain h
  refine ⟨hc, fun p hp' d hd => ?_⟩
  have := hp p hp'
  cases p
  simp only [XPlainPedigree] at this
  simp only [Pedigree.relatives, List.mem_append] at hd
  rcases hd with (hd | hd) | hd
  · exact each ((xplainComponents_iff _).1 this.1) d hd
  · exact each ((xplainComponents_iff _).1 this.2.1) d hd
  · exact each ((xplainComponents_iff _).1 this.2.2.1) d hd

theorem fits_children {c : Component} (h : c.XFits v) : ∀ d ∈ c.children, d.XFits v := by
  rw [component_children_iff]
  rw [component_fits] at h
  obtain ⟨-, -, -, -, -, -, -, -, -, -, -, -, -, -, -, -, hp, -, -, hc, -⟩ := h
  refine ⟨hc, fun p hp' d hd => ?_⟩
  have hp : XFitsPedigree v p := by
    rcases hp with e | e
    · rw [e] at hp'; cases hp'
    · exact e.2 p hp'
  have := (pedigree_fits p).1 hp
  simp only [Pedigree.relatives, List.mem_append] at hd
  rcases hd with (hd | hd) | hd
  · exact this.1 d hd
  · exact this.2.1 d hd
  · exact this.2.2.1 d hd

theorem listed_children {c : Component} (h : c.XListed v) : ∀ d ∈ c.children, d.XListed v := by
  rw [component_children_iff]
  rw [component_listed] at h
  obtain ⟨-, -, -, -, -, hp, -, hc, -⟩ := h
  exact ⟨hc, fun p hp' => (hp p hp').1⟩

theorem writable_children {c : Component} (h : c.XWritable) : ∀ d ∈ c.children, d.XWritable := by
  exact ((Component.xWritable_iff c).1 h).2.1

theorem own (hv : SpecVersion1_0 ≤ v) {c : Component} (hp : c.XPlain) (hw' : ∀ y ∈ c.licenses.elems, LicenseChoice.XWritable y)
    (h : c.XFits v) (hl : c.XListed v) :
    c.OwnSettled v ↔ c.type ≠ "cryptographic-asset" ∧ (c.scope = "excluded" → SpecVersion1_2 ≤ v) ∧
      (v = SpecVersion1_5 → ∀ e ∈ c.evidence, e.identity = none) := by
  obtain ⟨p1, p2, p3, p4, -, -, p7, p8, p9⟩ := component_plain hp
  rw [component_fits] at h
  rw [component_listed] at hl
  obtain ⟨f1, f2, f3, f4, -, f6, f7, -, f9, f10, -, f12, f13, f14, f15, f16, f17, f18, f19, -, f21, f22, f23, f24, f25, f26, f27⟩ := h
  obtain ⟨l1, l2, l3, -, -, -, l7, -, -, -, -, -, l13, -⟩ := hl
  have hw : ∀ e ∈ c.evidence, SpecVersion1_3 ≤ v ∧ Evidence.XFits v e := by
    intro e he
    rcases f21 with k | k
    · refine absurd ?_ (k e he)
      have := (p7 e he).1
      by_cases hn : Evidence.XWritten e
      · exact hn
      · exfalso
        simp only [Evidence.XWritten, not_or, not_not] at hn
        apply this
        cases e
        simp only at hn
        obtain ⟨rfl, rfl, rfl, rfl, rfl⟩ := hn
        rfl
    · exact ⟨k.1, k.2 e he⟩
  constructor
  · rintro ⟨-, -, t, -, -, -, -, -, s, -, -, -, -, -, -, -, -, -, e, -⟩
    refine ⟨t.2, fun hs => ?_, fun h5 y hy => ?_⟩
    · rcases s with s | s
      · rw [hs] at s; exact absurd s (by decide)
      · exact s.2 hs
    · exact (evidence (hw y hy).1 (p7 y hy) (hw y hy).2).1 (e y hy) h5
  · rintro ⟨kt, ks, ke⟩
    refine ⟨f1, f2, ⟨known_of_lists rfl (by decide +kernel) hv l1, kt⟩, f3.imp_right And.left, f4.imp_right And.left, f7,
      f6.imp_right And.left, ?_, ?_, hashes hv p1 l3, licenses p2 f10 fun _ => named hw',
      f13.imp_left (nil_of_all p3 fun y hy => hy.1), f14.imp_left (nil_of_all p4 fun y hy => hy.1), f15.imp_right And.left,
      f16.symm, f17.imp_right fun k => ⟨k.1, fun p hp' => ((pedigree_fits p).1 (k.2 p hp')).2.2.2⟩,
      f18.imp_right fun k => ⟨k.1, fun y hy => reference k.1 (k.2 y hy) (l7 y hy)⟩, f19,
      fun y hy => (evidence (hw y hy).1 (p7 y hy) (hw y hy).2).2 fun h5 => ke h5 y hy, f22, ?_, ?_, ?_, f26, .inl f27,
      f12.imp_right And.left, ?_⟩
    · by_cases h4 : SpecVersion1_4 ≤ v
      · exact .inr h4
      · simp only [SpecVersion1_4, SpecVersion1_7] at *
        rcases f9 with ⟨-, k | k⟩ | k
        · exact .inl k.2.1
        · omega
        · omega
    · by_cases he : c.scope = ""
      · exact .inl he
      · exact .inr ⟨known_of_lists rfl (by decide +kernel) hv (l2 he), ks⟩
    · intro y hy
      rcases f23 with e | e
      · rw [e] at hy; cases hy
      · exact card e.1 (e.2 y hy)
    · rcases f24 with ⟨-, k | k⟩ | k
      · exact .inl (nil_of p8 k)
      · exact .inr k.1
      · exact .inr (by simp only [SpecVersion1_5, SpecVersion1_7] at *; omega)
    · intro y hy
      rcases f25 with e | e
      · rw [e] at hy; cases hy
      · exact crypto e.1 (p9 y hy) (e.2 y hy) (l13 y hy)
    · rcases f9 with ⟨-, k | k⟩ | k
      · exact .inl k.2.2
      · exact .inl k.2
      · exact .inr k.1

theorem component (hv : SpecVersion1_0 ≤ v) (c : Component) (hp : c.XPlain) (hw : c.XWritable) (h : c.XFits v) (hl : c.XListed v) :
    c.Settled v ↔ c.XKept v := by
  induction c using Component.induct with
  | h c ih =>
    unfold Component.Settled Component.XKept
    rw [walk_all, walk_all (P := fun d => d.type ≠ "cryptographic-asset" ∧ (d.scope = "excluded" → SpecVersion1_2 ≤ v) ∧
      (v = SpecVersion1_5 → ∀ e ∈ d.evidence, e.identity = none)), own hv hp ((Component.xWritable_iff c).1 hw).1 h hl]
    refine and_congr_right fun _ => ?_
    constructor
    · exact fun k e he => (ih e he (plain_children hp e he) (writable_children hw e he) (fits_children h e he) (listed_children hl e he)).1 (k e he)
    · exact fun k e he => (ih e he (plain_children hp e he) (writable_children hw e he) (fits_children h e he) (listed_children hl e he)).2 (k e he)

/-! ### Services -/

theorem service (hv : SpecVersion1_2 ≤ v) (s : Service) (h : s.XFits v) (hl : s.XListed v) : s.Settled v ↔ s.Kept v := by
  have h1 : SpecVersion1_1 ≤ v := by simp only [SpecVersion1_1, SpecVersion1_2] at *; omega
  have key : s.Settled v ↔ ∀ is t, walkService s is = some t → (v = SpecVersion1_5 → ∀ x ∈ t.data.elems,
      x.name = "" ∧ x.description = "" ∧ x.governance = none ∧ x.source = .nil ∧ x.destination = .nil) := by
    induction s using Service.induct with
    | h s ih =>
      unfold Service.Settled
      rw [walkService_all, walkService_all (P := fun t => v = SpecVersion1_5 → ∀ x ∈ t.data.elems,
        x.name = "" ∧ x.description = "" ∧ x.governance = none ∧ x.source = .nil ∧ x.destination = .nil)]
      rw [service_fits] at h
      rw [service_listed] at hl
      obtain ⟨f1, -, f3, f4, -, -, f7, f8, f9, f10, f11, -⟩ := h
      obtain ⟨-, -, l3, l4, -⟩ := hl
      refine and_congr ?_ ⟨fun k e he => (ih e he (f10 e he) (l4 e he)).1 (k e he),
        fun k e he => (ih e he (f10 e he) (l4 e he)).2 (k e he)⟩
      constructor
      · rintro k rfl x hx
        exact (k.2.1 x hx).resolve_right (by decide)
      · refine fun k => ⟨fun y hy => entity (f1 y hy), fun y hy => ?_,
          fun y hy => reference h1 (f8 y hy) (l3 y hy), f9, f11, f3, f7.imp_right And.left⟩
        rcases f4 with e | e
        · rw [e] at hy; cases hy
        · by_cases h6 : SpecVersion1_6 ≤ v
          · exact .inr h6
          · exact .inl (k (by simp only [SpecVersion1_5, SpecVersion1_6] at *; omega) y hy)
  rw [key]
  exact ⟨fun k e is t ht => k is t ht e, fun k is t ht e => k e is t ht⟩

/-! ### The rest -/

theorem tools (hv : SpecVersion1_2 ≤ v) {x : ToolsChoice} (hp : x.XPlain) (h : x.XFits v) (hl : x.XListed v) : x.Settled v := by
  have h0 : SpecVersion1_0 ≤ v := by simp only [SpecVersion1_0, SpecVersion1_2] at *; omega
  have h1 : SpecVersion1_1 ≤ v := by simp only [SpecVersion1_1, SpecVersion1_2] at *; omega
  refine ⟨fun y hy => ⟨hashes h0 (each hp.2.1 y hy).2.2.2.1 (hl.1 y hy).1, ?_⟩, h.2.imp And.left And.left, ?_⟩
  · exact Or.imp_right (fun k => ⟨k.1, fun z hz => reference h1 (k.2 z hz) ((hl.1 y hy).2 z hz)⟩) (h.1 y hy)
  · exact h.2.imp And.right fun h => ⟨h.1, fun s hs y hy => entity (((service_fits s).1 (h.2.2 s hs)).1 y hy)⟩

theorem metadata (hv : SpecVersion1_2 ≤ v) {x : Metadata} (hp : x.XPlain) (hw : x.XWritable) (h : x.XFits v) (hl : x.XListed v) :
    x.Settled v ↔ ∀ c ∈ x.component, Component.XKept v c := by
  have h0 : SpecVersion1_0 ≤ v := by simp only [SpecVersion1_0, SpecVersion1_2] at *; omega
  obtain ⟨f1, f2, f3, f4, -, f6, f7, f8, f9, f10, f11⟩ := h
  obtain ⟨-, l2, l3, -⟩ := hl
  obtain ⟨-, -, p3, -, p5, -, -, -, p9, -⟩ := hp
  constructor
  · exact fun k c hc => (component h0 c (p5 c hc) (hw.2.1 c hc) (f4 c hc) (l3 c hc)).1 (k.2.2.2.1 c hc)
  · intro k
    exact ⟨f1.imp_right And.left, fun t ht => tools hv (p3 t ht) (f2 t ht) (l2 t ht), f3,
      fun c hc => (component h0 c (p5 c hc) (hw.2.1 c hc) (f4 c hc) (l3 c hc)).2 (k c hc), f7, f6.imp_right And.left, f8,
      f9.imp (nil_of p9) fun k => ⟨k.1, fun y hy => choice (each p9 y hy) (licenses_fits k.2 y hy)⟩, f10, f11⟩

theorem vulnerability (hv : SpecVersion1_4 ≤ v) {x : Vulnerability} (hp : x.XPlain) (h : x.XFits v) (hl : x.XListed v) :
    x.Settled v ↔ ∀ r ∈ x.ratings.elems, r.method ≠ "" := by
  have h2 : SpecVersion1_2 ≤ v := by simp only [SpecVersion1_2, SpecVersion1_4] at *; omega
  obtain ⟨-, f2, f3, f4, f5, f6, f7, -⟩ := h
  obtain ⟨l1, -, l3, -⟩ := hl
  have p := hp.2.2.2.2.2.2.2.2.2.2.2.2.2.2.2.2.2.1
  constructor
  · intro k r hr e
    obtain ⟨n, hn, -⟩ := k.1 r hr
    rw [e] at hn
    exact (by decide +kernel : ∀ e ∈ scoringMethodSince, e.1 ≠ "") _ hn rfl
  · intro k
    refine ⟨fun r hr => known_of_lists rfl (by decide +kernel) hv ((l1 r hr).2 (k r hr)), f2, f3, f4, f5,
      fun t ht => tools h2 (p t ht) (f6 t ht) (l3 t ht), fun y hy => ?_⟩
    by_cases h5 : SpecVersion1_5 ≤ v
    · exact .inr h5
    · exact .inl ⟨(f7 y hy).1.resolve_right h5, (f7 y hy).2.resolve_right h5⟩

theorem annotator (hv : SpecVersion1_5 ≤ v) {x : Annotator} (h : x.XFits v) (hl : x.XListed v) :
    x.Settled v ↔ ∀ s ∈ x.service, Service.Kept v s := by
  have h2 : SpecVersion1_2 ≤ v := by simp only [SpecVersion1_2, SpecVersion1_5] at *; omega
  have ho : ∀ y ∈ x.organization, OrganizationalEntity.XFits v y := by
    rcases h with h | h | h | h
    · exact h.1
    all_goals (intro y hy; rw [h.1] at hy; cases hy)
  have hs : ∀ y ∈ x.service, Service.XFits v y := by
    rcases h with h | h | h | h
    · intro y hy; rw [h.2.2.2] at hy; cases hy
    · intro y hy; rw [h.2.2.2] at hy; cases hy
    · intro y hy; rw [h.2.2.2] at hy; cases hy
    · exact h.2.2.2
  constructor
  · rintro (k | k) s hs'
    · rintro rfl; exact absurd k (by decide)
    · exact (service h2 s (hs s hs') (hl.2 s hs')).1 (k.2 s hs')
  · exact fun k => .inr ⟨fun y hy => entity (ho y hy), fun s hs' => (service h2 s (hs s hs') (hl.2 s hs')).2 (k s hs')⟩

theorem annotation_fits {x : Annotation} (h : x.XFits v) {a : Annotator} (ha : a ∈ x.annotator) : a.XFits v := by
  obtain ⟨a', ha', h⟩ := h.1
  rw [Option.mem_unique ha ha']
  exact h

theorem bom (hv : SpecVersion1_0 ≤ v) {x : BOM} (hp : x.XPlain) (hw : x.XWritable) (h : x.XFits v) (hl : x.XListed v) :
    x.Settled v ↔ x.XKept v := by
  obtain ⟨f1, f2, f3, f4, f5, f6, f7, -, f9, f10, f11, f12, f13, f14⟩ := h
  obtain ⟨l1, l2, l3, l4, l5, l6, l7, -⟩ := hl
  obtain ⟨-, -, -, p1, p2, -, -, p3, -, -, p4, -⟩ := hp
  have f3 : ∀ y ∈ x.components.elems, Component.XFits v y := by
    rcases f3 with k | k
    · exact k.2.2
    · exact k.2
  constructor
  · rintro ⟨-, k2, k3, k4, -, -, -, k8, k9, -⟩
    refine ⟨fun m hm => ?_, fun c hc => (component hv c (each p2 c hc) (hw.2.1 c hc) (f3 c hc) (l2 c hc)).1 (k3 c hc), fun s hs => ?_,
      fun y hy => ?_, fun y hy a ha => ?_⟩
    · rcases k2 with e | e
      · rw [e] at hm; cases hm
      · rcases f2 with e' | e'
        · rw [e'] at hm; cases hm
        · exact (metadata e.1 (p1 m hm) (hw.1 m hm) (e'.2 m hm) (l1 m hm)).1 (e.2 m hm)
    · rcases k4 with e | e
      · rw [e] at hs; cases hs
      · rcases f4 with e' | e'
        · rw [e'] at hs; cases hs
        · exact (service e.1 s (e'.2 s hs) (l3 s hs)).1 (e.2 s hs)
    · rcases k8 with e | e
      · rw [e] at hy; cases hy
      · rcases f9 with e' | e'
        · rw [e'] at hy; cases hy
        · exact (vulnerability e.1 (each p4 y hy) (e'.2 y hy) (l6 y hy)).1 (e.2 y hy)
    · rcases k9 with e | e
      · rw [e] at hy; cases hy
      · rcases f10 with e' | e'
        · rw [e'] at hy; cases hy
        · exact (annotator e.1 (annotation_fits (e'.2 y hy) ha) (l7 y hy a ha)).1 (e.2 y hy a ha)
  · rintro ⟨k1, k2, k3, k4, k5⟩
    exact ⟨f1, f2.imp_right fun h => ⟨h.1, fun m hm => (metadata h.1 (p1 m hm) (hw.1 m hm) (h.2 m hm) (l1 m hm)).2 (k1 m hm)⟩,
      fun c hc => (component hv c (each p2 c hc) (hw.2.1 c hc) (f3 c hc) (l2 c hc)).2 (k2 c hc),
      f4.imp_right fun h => ⟨h.1, fun s hs => (service h.1 s (h.2 s hs) (l3 s hs)).2 (k3 s hs)⟩,
      f5.imp_right fun h => ⟨h.1, fun y hy => reference h.1 (h.2 y hy) (l4 y hy)⟩,
      f6.imp_right fun h => ⟨h.1, fun y hy => Or.imp_left (nil_of (each p3 y hy).2.2) (h.2 y hy)⟩,
      f7.imp_right fun h => ⟨h.1, fun y hy => composition h.1 (h.2 y hy) (l5 y hy)⟩,
      f9.imp_right fun h => ⟨h.1, fun y hy => (vulnerability h.1 (each p4 y hy) (h.2 y hy) (l6 y hy)).2 (k4 y hy)⟩,
      f10.imp_right fun h => ⟨h.1, fun y hy a ha => (annotator h.1 (annotation_fits (h.2 y hy) ha) (l7 y hy a ha)).2 (k5 y hy a ha)⟩,
      f11.imp_right And.left, f12.imp_right And.left,
      f13.imp_right fun h => ⟨h.1, fun y hy => (h.2 y hy).2.imp_right And.left⟩, f14.imp_right And.left⟩

end XConforming

end Verif
