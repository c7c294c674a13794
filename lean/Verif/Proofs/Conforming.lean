import Verif.Proofs.Settled
import Verif.Proofs.ListedConverted
import Verif.Proofs.CompleteConverted

/-!
# What conforms to the JSON schema of a version is settled, up to what `Kept` excludes
-/

namespace Verif

set_option linter.unusedSimpArgs false

open Spec (walk walkService Known Late hashAlgorithmSince componentTypeSince scopeSince externalReferenceTypeSince
  aggregateSince scoringMethodSince cryptoPrimitiveSince protocolTypeSince)

namespace Conforming

open ListedConverted (lists_iff component_listed service_listed)
open FitsConverted (component_fits service_fits pedigree_fits walk_all walkService_all)

variable {v : Int}

/-! ### Strings -/

/-- Values enumerated in JSON are in the tables of `Spec.Schema`, which are read from the XML schemas. -/
theorem known_of_lists {p : Place} {k : String} {gs : List (Int × List String)} (h : p.enums.lookup k = some gs)
    {table : List (String × Int)} (ht : ∀ g ∈ gs, ∀ s ∈ g.2, ∃ e ∈ table, e.1 = s ∧ (e.2 ≤ g.1 ∨ e.2 ≤ SpecVersion1_2))
    (hv : SpecVersion1_2 ≤ v) {s : String} (hs : p.Lists v k s) : Known table v s := by
  obtain ⟨g, hg, hl, hs⟩ := (lists_iff h s).1 hs
  obtain ⟨⟨s', n⟩, he, rfl, hn⟩ := ht g hg s hs
  refine ⟨n, he, ?_⟩
  simp only at hn
  rcases hn with hn | hn <;> omega

theorem not_late {table : List (String × Int)} (hd : ∀ e ∈ table, table.lookup e.1 = some e.2) {s : String}
    (h : Known table v s) : ¬ Late table v s := by
  obtain ⟨k, hk, hv⟩ := h
  exact fun hl => (Settled.not_known_late hd hk).2 hl ⟨k, hk, hv⟩

theorem not_late_empty {table : List (String × Int)} (hd : ∀ e ∈ table, e.1 ≠ "") : ¬ Late table v "" := by
  rintro ⟨k, hk, -⟩
  exact hd _ hk rfl

/-! ### Leaves -/

theorem contact {x : OrganizationalContact} (h : x.Fits v) : x.Settled v := h

theorem entity {x : OrganizationalEntity} (h : x.Fits v) : x.Settled v :=
  ⟨h.1, h.2.1, h.2.2.2.2⟩

theorem composition (hv : SpecVersion1_3 ≤ v) {x : Composition} (h : x.Fits v) (hl : x.Listed v) : x.Settled v := by
  have h2 : SpecVersion1_2 ≤ v := by simp only [SpecVersion1_2, SpecVersion1_3] at *; omega
  refine ⟨h.1, h.2.2.2.1.imp_right And.left, ?_⟩
  obtain ⟨g, hg, hgv, hs⟩ := (lists_iff (gs := _) rfl _).1 hl.1
  obtain ⟨e, he, hs', hn⟩ := (by decide +kernel : ∀ g ∈ ((Place.compositions).enums.lookup "aggregate").getD [], ∀ s ∈ g.2,
    ∃ e ∈ aggregateSince, e.1 = s ∧ (e.2 ≤ g.1 ∨ e.2 ≤ SpecVersion1_3)) g hg _ hs
  refine not_late (by decide +kernel) ⟨e.2, hs' ▸ he, ?_⟩
  rcases hn with hn | hn <;> omega

theorem reference (hv : SpecVersion1_2 ≤ v) {x : ExternalReference} (h : x.Fits v) (hl : x.Listed v) : x.Settled v := by
  refine ⟨fun hlate => absurd hlate ?_, h.1.imp_right And.left, h.2.imp_right And.left⟩
  exact not_late (by decide +kernel) (known_of_lists rfl (by decide +kernel) hv hl.2)

theorem hashes (hv : SpecVersion1_2 ≤ v) {hs : PSlice Hash} (hl : ∀ y ∈ hs.elems, Hash.Listed v y) :
    HashesSettled v hs ↔ hs ≠ .list [] := by
  refine ⟨fun h => h.1, fun h => ⟨h, fun y hy => ?_⟩⟩
  exact known_of_lists rfl (by decide +kernel) hv (hl y hy)

theorem party {x : OrganizationalEntityOrContact} (h : x.Fits v) : x.Settled v :=
  fun y hy => entity (h.1 y hy)

theorem licensing {x : Licensing} (h : x.Fits v) : x.Settled v :=
  ⟨fun y hy => party (h.2.1 y hy), fun y hy => party (h.2.2.1 y hy), fun y hy => party (h.2.2.2.1 y hy)⟩

theorem license {x : License} (h : x.Fits v) : x.Settled v :=
  ⟨h.1, h.2.1, h.2.2.1.imp_right fun h => ⟨h.1, fun y hy => licensing (h.2 y hy)⟩, h.2.2.2.imp_right And.left⟩

theorem choice {x : LicenseChoice} (h : x.Fits v) : x.Settled v :=
  ⟨fun y hy => license (h.1 y hy), h.2.1.imp_right And.left, h.2.2.2.2.1.imp_right And.left, h.2.2.2.2.2.imp_right And.left⟩

theorem licenses (hv : SpecVersion1_2 ≤ v) {ls : PSlice LicenseChoice} (h : ∀ y ∈ ls.elems, LicenseChoice.Fits v y) :
    LicensesSettled v ls :=
  ⟨.inl (by simp only [SpecVersion1_1, SpecVersion1_2] at *; omega), fun y hy => choice (h y hy)⟩

theorem identity {x : EvidenceIdentityChoice} (h : x.Fits v) : x.Settled v := by
  by_cases h6 : SpecVersion1_6 ≤ v
  · exact .inl h6
  · exact .inr ⟨h.2.2.resolve_right fun h' => h6 h'.1, fun y hy => (h.2.1 y hy).1.resolve_right h6⟩

theorem occurrence {x : EvidenceOccurrence} (h : x.Fits v) : x.Settled v := by
  by_cases h6 : SpecVersion1_6 ≤ v
  · exact .inr h6
  · exact .inl ⟨h.1.resolve_right h6, h.2.1.resolve_right h6, h.2.2.1.resolve_right h6, h.2.2.2.resolve_right h6⟩

theorem evidence (hv : SpecVersion1_3 ≤ v) {x : Evidence} (h : x.Fits v) : x.Settled v := by
  have h2 : SpecVersion1_2 ≤ v := by simp only [SpecVersion1_2, SpecVersion1_3] at *; omega
  exact ⟨hv, h.1.imp_right fun h => ⟨h.1, fun y hy => identity (h.2 y hy)⟩,
    h.2.1.imp_right fun h => ⟨h.1, fun y hy => occurrence (h.2.2 y hy)⟩, h.2.2.1.imp_right And.left,
    fun _ => licenses h2 h.2.2.2.2.1⟩

theorem card (hv : SpecVersion1_5 ≤ v) {x : MLModelCard} (h : x.Fits v) : x.Settled v := by
  refine ⟨hv, ?_⟩
  by_cases h6 : SpecVersion1_6 ≤ v
  · exact .inr h6
  · exact .inl fun y hy => (h.2.2 y hy).2.2.2.2.2.1.resolve_right fun h' => h6 h'.1

theorem algorithm (hv : SpecVersion1_6 ≤ v) {x : CryptoAlgorithmProperties} (h : x.Fits v) (hl : x.Listed v) : x.Settled v := by
  refine ⟨h.1, h.2.1, ?_⟩
  by_cases he : x.primitive = ""
  · rw [he]; exact not_late_empty (by decide +kernel)
  · obtain ⟨g, hg, hgv, hs⟩ := (lists_iff (gs := _) rfl _).1 (hl.1 he)
    obtain ⟨e, he, hs', hn⟩ := (by decide +kernel : ∀ g ∈ ((Place.algorithmProperties).enums.lookup "primitive").getD [],
      ∀ s ∈ g.2, ∃ e ∈ cryptoPrimitiveSince, e.1 = s ∧ (e.2 ≤ g.1 ∨ e.2 ≤ SpecVersion1_6)) g hg _ hs
    refine not_late (by decide +kernel) ⟨e.2, hs' ▸ he, ?_⟩
    rcases hn with hn | hn <;> omega

theorem certificate {x : CertificateProperties} (h : x.Fits v) : x.Settled v := by
  obtain ⟨h1, h2, h3, h4, h5, h6, h7⟩ := h
  exact ⟨h1, h2, h3, h4.imp_right And.left, h5.imp_right And.left, h6.imp_right And.left, h7⟩

theorem related {x : RelatedCryptoMaterialProperties} (h : x.Fits v) : x.Settled v :=
  ⟨h.1, h.2.imp_right And.left⟩

theorem suite {x : CipherSuite} (h : x.Fits v) : x.Settled v :=
  ⟨h.2.2.1.imp_right And.left, h.2.2.2.imp_right And.left⟩

theorem protocol (hv : SpecVersion1_6 ≤ v) {x : CryptoProtocolProperties} (h : x.Fits v) (hl : x.Listed v) : x.Settled v := by
  refine ⟨?_, h.2.2.2.2.imp_right And.left, fun y hy => suite (h.2.1 y hy)⟩
  by_cases he : x.type = ""
  · rw [he]; exact not_late_empty (by decide +kernel)
  · obtain ⟨g, hg, hgv, hs⟩ := (lists_iff (gs := _) rfl _).1 (hl he)
    obtain ⟨e, he, hs', hn⟩ := (by decide +kernel : ∀ g ∈ ((Place.protocolProperties).enums.lookup "type").getD [],
      ∀ s ∈ g.2, ∃ e ∈ protocolTypeSince, e.1 = s ∧ (e.2 ≤ g.1 ∨ e.2 ≤ SpecVersion1_6)) g hg _ hs
    refine not_late (by decide +kernel) ⟨e.2, hs' ▸ he, ?_⟩
    rcases hn with hn | hn <;> omega

theorem crypto (hv : SpecVersion1_6 ≤ v) {x : CryptoProperties} (h : x.Fits v) (hl : x.Listed v) : x.Settled v :=
  ⟨hv, fun y hy => algorithm hv (h.1 y hy) (hl.2.1 y hy), fun y hy => certificate (h.2.1 y hy),
    fun y hy => related (h.2.2.1 y hy), fun y hy => protocol hv (h.2.2.2 y hy) (hl.2.2.2.2 y hy)⟩

/-! ### Components -/

theorem own (hv : SpecVersion1_2 ≤ v) {c : Component} (h : c.Fits v) (hl : c.Listed v) (hq : c.Complete v) :
    c.OwnSettled v ↔ c.type ≠ "cryptographic-asset" ∧ c.hashes ≠ .list [] := by
  have h1 : SpecVersion1_1 ≤ v := by simp only [SpecVersion1_1, SpecVersion1_2] at *; omega
  rw [component_fits] at h
  rw [component_listed] at hl
  rw [Component.complete_iff] at hq
  obtain ⟨-, f2, f3, -, -, f6, f7, f8, f9, -, f11, f12, -, f14, f15, f16, f17, f18, f19, f20, f21, f22, -⟩ := h
  obtain ⟨l1, l2, l3, -, -, -, l7, -, -, -, -, -, l13, -⟩ := hl
  have hh := hashes hv l3
  constructor
  · intro h
    obtain ⟨-, -, t, -, -, -, -, -, -, s, -⟩ := h
    exact ⟨t.2, hh.1 s⟩
  · rintro ⟨ht, hs⟩
    refine ⟨.inr h1, .inr hv, ⟨known_of_lists rfl (by decide +kernel) hv l1, ht⟩, .inr hv, f2.imp_right And.left, .inr hv,
      f3.imp_right And.left, ?_, ?_, hh.2 hs, licenses hv f6, f7.imp_right And.left, f8.imp_right And.left, .inr hv, .inr h1,
      .inr ⟨h1, fun _ _ => .inr hv⟩, .inr ⟨h1, fun y hy => reference hv (f11 y hy) (l7 y hy)⟩, f12.imp_right And.left, ?_,
      f15.imp_right And.left, ?_, f17.imp_right And.left, ?_, f19.imp_right And.left, f20, f21.imp_right And.left, f22⟩
    · by_cases h4 : SpecVersion1_4 ≤ v
      · exact .inr h4
      · exact .inl (hq.1 (by simp only [SpecVersion1_3, SpecVersion1_4] at *; omega))
    · by_cases he : c.scope = ""
      · exact .inl he
      · exact .inr ⟨known_of_lists rfl (by decide +kernel) hv (l2 he), fun _ => hv⟩
    · intro y hy
      rcases f14 with e | e
      · rw [e] at hy; cases hy
      · exact evidence e.1 (e.2 y hy)
    · intro y hy
      rcases f16 with e | e
      · rw [e] at hy; cases hy
      · exact card e.1 (e.2 y hy)
    · intro y hy
      rcases f18 with e | e
      · rw [e] at hy; cases hy
      · exact crypto e.1 (e.2 y hy) (l13 y hy)

theorem fits_children {c : Component} (h : c.Fits v) : ∀ d ∈ c.children, d.Fits v := by
  rw [component_children_iff]
  rw [component_fits] at h
  obtain ⟨-, -, -, -, -, -, -, -, hp, -, -, -, hc, -⟩ := h
  refine ⟨hc.2, fun p hp' d hd => ?_⟩
  have := (pedigree_fits p).1 (hp p hp')
  simp only [Pedigree.relatives, List.mem_append] at hd
  rcases hd with (hd | hd) | hd
  · exact this.1.2 d hd
  · exact this.2.1.2 d hd
  · exact this.2.2.1.2 d hd

theorem listed_children {c : Component} (h : c.Listed v) : ∀ d ∈ c.children, d.Listed v := by
  rw [component_children_iff]
  rw [component_listed] at h
  obtain ⟨-, -, -, -, -, hp, -, hc, -⟩ := h
  exact ⟨hc, fun p hp' => (hp p hp').1⟩

theorem component (hv : SpecVersion1_2 ≤ v) (c : Component) (h : c.Fits v) (hl : c.Listed v) (hq : c.Complete v) :
    c.Settled v ↔ c.Kept := by
  induction c using Component.induct with
  | h c ih =>
    unfold Component.Settled Component.Kept
    rw [walk_all, walk_all, own hv h hl hq]
    refine and_congr_right fun _ => ?_
    have hq' := ((Component.complete_iff v c).1 hq).2.2.1
    constructor
    · exact fun k e he => (ih e he (fits_children h e he) (listed_children hl e he) (hq' e he)).1 (k e he)
    · exact fun k e he => (ih e he (fits_children h e he) (listed_children hl e he) (hq' e he)).2 (k e he)

/-! ### Services -/

theorem classification {x : DataClassification} (h : x.Fits v) :
    x.Settled v ↔ (v = SpecVersion1_5 →
      x.name = "" ∧ x.description = "" ∧ x.governance = none ∧ x.source = .nil ∧ x.destination = .nil) := by
  obtain ⟨h1, h2, h3, h4, h5⟩ := h
  constructor
  · rintro (k | k) rfl
    · exact k
    · exact absurd k (by decide)
  · intro k
    by_cases h6 : SpecVersion1_6 ≤ v
    · exact .inr h6
    · refine .inl ?_
      by_cases e : v = SpecVersion1_5
      · exact k e
      · have : ¬ SpecVersion1_5 ≤ v := by simp only [SpecVersion1_5, SpecVersion1_6] at *; omega
        exact ⟨h1.resolve_right this, h2.resolve_right this, h3.resolve_right fun h => this h.1,
          h4.resolve_right fun h => this h.1, h5.resolve_right fun h => this h.1⟩

theorem service (hv : SpecVersion1_2 ≤ v) (s : Service) (h : s.Fits v) (hl : s.Listed v) : s.Settled v ↔ s.Kept v := by
  have key : s.Settled v ↔ ∀ is t, walkService s is = some t → (v = SpecVersion1_5 → ∀ x ∈ t.data.elems,
      x.name = "" ∧ x.description = "" ∧ x.governance = none ∧ x.source = .nil ∧ x.destination = .nil) := by
    induction s using Service.induct with
    | h s ih =>
      unfold Service.Settled
      rw [walkService_all, walkService_all (P := fun t => v = SpecVersion1_5 → ∀ x ∈ t.data.elems,
        x.name = "" ∧ x.description = "" ∧ x.governance = none ∧ x.source = .nil ∧ x.destination = .nil)]
      rw [service_fits] at h
      rw [service_listed] at hl
      obtain ⟨f1, -, -, f4, -, -, -, f8, f9, f10, f11, -, f13, f14, -⟩ := h
      obtain ⟨-, -, l3, l4, -⟩ := hl
      refine and_congr ?_ ⟨fun k e he => (ih e he (f10.2 e he) (l4 e he)).1 (k e he),
        fun k e he => (ih e he (f10.2 e he) (l4 e he)).2 (k e he)⟩
      constructor
      · exact fun k e x hx => (classification (f4 x hx)).1 (k.2.1 x hx) e
      · exact fun k => ⟨fun y hy => entity (f1 y hy), fun y hy => (classification (f4 y hy)).2 fun e => k e y hy,
          fun y hy => reference hv (f8 y hy) (l3 y hy), f9.imp_right And.left, f11.imp_right And.left, f13,
          f14.imp_right And.left⟩
  rw [key]
  exact ⟨fun k e is t ht => k is t ht e, fun k is t ht e => k e is t ht⟩

/-! ### The rest -/

theorem tool (hv : SpecVersion1_2 ≤ v) {x : Tool} (h : x.Fits v) (hl : x.Listed v) : x.Settled v ↔ x.hashes ≠ .list [] := by
  refine ⟨fun k => k.1.1, fun k => ⟨(hashes hv hl.1).2 k, h.2.imp_right fun h => ⟨h.1, fun y hy => reference hv (h.2.2 y hy) (hl.2 y hy)⟩⟩⟩

theorem tools (hv : SpecVersion1_2 ≤ v) {x : ToolsChoice} (h : x.Fits v) (hl : x.Listed v) : x.Settled v ↔ x.Kept := by
  constructor
  · exact fun k y hy => (tool hv (h.1.2 y hy) (hl.1 y hy)).1 (k.1 y hy)
  · intro k
    refine ⟨fun y hy => (tool hv (h.1.2 y hy) (hl.1 y hy)).2 (k y hy), ?_, ?_⟩
    · exact h.2.imp And.left And.left
    · refine h.2.imp And.right fun h => ⟨h.1, fun s hs y hy => ?_⟩
      exact entity (((service_fits s).1 (h.2.2.2 s hs)).1 y hy)

theorem metadata (hv : SpecVersion1_2 ≤ v) {x : Metadata} (h : x.Fits v) (hl : x.Listed v) (hq : x.Complete v) :
    x.Settled v ↔ (∀ c ∈ x.component, Component.Kept c) ∧ ∀ t ∈ x.tools, ToolsChoice.Kept t := by
  obtain ⟨f1, f2, -, f4, f5, f6, f7, f8, f9, f10, f11⟩ := h
  obtain ⟨-, l2, l3, -⟩ := hl
  constructor
  · intro k
    exact ⟨fun c hc => (component hv c (f5 c hc) (l3 c hc) (hq.2.2.1 c hc)).1 (k.2.2.2.1 c hc),
      fun t ht => (tools hv (f2 t ht) (l2 t ht)).1 (k.2.1 t ht)⟩
  · rintro ⟨k1, k2⟩
    exact ⟨f1.imp_right And.left, fun t ht => (tools hv (f2 t ht) (l2 t ht)).2 (k2 t ht), f4,
      fun c hc => (component hv c (f5 c hc) (l3 c hc) (hq.2.2.1 c hc)).2 (k1 c hc), fun y hy => entity (f6 y hy),
      f7.imp_right And.left, fun y hy => entity (f8 y hy), f9.imp_right fun h => ⟨h.1, fun y hy => choice (h.2.2 y hy)⟩,
      f10.imp_right And.left, f11⟩

theorem vulnerability (hv : SpecVersion1_4 ≤ v) {x : Vulnerability} (h : x.Fits v) (hl : x.Listed v) :
    x.Settled v ↔ (∀ r ∈ x.ratings.elems, r.method ≠ "") ∧ ∀ t ∈ x.tools, ToolsChoice.Kept t := by
  have h2 : SpecVersion1_2 ≤ v := by simp only [SpecVersion1_2, SpecVersion1_4] at *; omega
  obtain ⟨-, -, -, f4, f5, -, f7, f8, f9, f10, -⟩ := h
  obtain ⟨l1, -, l3, -⟩ := hl
  constructor
  · intro k
    refine ⟨fun r hr e => ?_, fun t ht => (tools h2 (f9 t ht) (l3 t ht)).1 (k.2.2.2.2.2.1 t ht)⟩
    obtain ⟨n, hn, -⟩ := k.1 r hr
    rw [e] at hn
    exact (by decide +kernel : ∀ e ∈ scoringMethodSince, e.1 ≠ "") _ hn rfl
  · rintro ⟨k1, k2⟩
    refine ⟨fun r hr => ?_, f4, f5.imp_right And.left, f7, fun c hc => ⟨fun y hy => entity ((f8 c hc).2.1 y hy), (f8 c hc).2.2.2⟩,
      fun t ht => (tools h2 (f9 t ht) (l3 t ht)).2 (k2 t ht), fun y hy => ?_⟩
    · obtain ⟨g, hg, hgv, hs⟩ := (lists_iff (gs := _) rfl _).1 ((l1 r hr).2 (k1 r hr))
      obtain ⟨e, he, hs', hn⟩ := (by decide +kernel : ∀ g ∈ ((Place.rating).enums.lookup "method").getD [],
        ∀ s ∈ g.2, ∃ e ∈ scoringMethodSince, e.1 = s ∧ (e.2 ≤ g.1 ∨ e.2 ≤ SpecVersion1_4)) g hg _ hs
      refine ⟨e.2, hs' ▸ he, ?_⟩
      rcases hn with hn | hn <;> omega
    · by_cases h5 : SpecVersion1_5 ≤ v
      · exact .inr h5
      · exact .inl ⟨(f10 y hy).2.1.resolve_right h5, (f10 y hy).2.2.resolve_right h5⟩

theorem annotator (hv : SpecVersion1_5 ≤ v) {x : Annotator} (h : x.Fits v) (hl : x.Listed v) :
    x.Settled v ↔ ∀ s ∈ x.service, Service.Kept v s := by
  have h2 : SpecVersion1_2 ≤ v := by simp only [SpecVersion1_2, SpecVersion1_5] at *; omega
  constructor
  · rintro (k | k) s hs
    · rintro rfl; exact absurd k (by decide)
    · exact (service h2 s (h.2.2.2 s hs) (hl.2 s hs)).1 (k.2 s hs)
  · exact fun k => .inr ⟨fun y hy => entity (h.1 y hy), fun s hs => (service h2 s (h.2.2.2 s hs) (hl.2 s hs)).2 (k s hs)⟩

theorem elems_gone {α : Type} {p : PSlice α} {P : α → Prop} (h : p = .nil) : ∀ y ∈ p.elems, P y := by
  subst h; intro y hy; cases hy

theorem bom (hv : SpecVersion1_2 ≤ v) {x : BOM} (h : x.Fits v) (hl : x.Listed v) (hq : x.Complete v) :
    x.Settled v ↔ x.Kept v := by
  have h1 : SpecVersion1_1 ≤ v := by simp only [SpecVersion1_1, SpecVersion1_2] at *; omega
  obtain ⟨f1, -, f3, -, f5, -, f7, -, f9, f10, -, f12, f13, f14, f15, f16, f17, -⟩ := h
  obtain ⟨-, l2, l3, l4, l5, l6, l7, l8, -⟩ := hl
  obtain ⟨q1, q2, -⟩ := hq
  constructor
  · rintro ⟨-, k2, k3, k4, -, -, -, k8, k9, -⟩
    refine ⟨fun m hm => ?_, fun c hc => (component hv c (f3 c hc) (l3 c hc) (q2 c hc)).1 (k3 c hc), fun s hs => ?_,
      fun y hy => ?_, fun y hy a ha => ?_⟩
    · rcases k2 with e | e
      · rw [e] at hm; cases hm
      · exact (metadata hv (f1 m hm) (l2 m hm) (q1 m hm)).1 (e.2 m hm)
    · rcases k4 with e | e
      · rw [e] at hs; cases hs
      · exact (service hv s (f5 s hs) (l4 s hs)).1 (e.2 s hs)
    · rcases k8 with e | e
      · rw [e] at hy; cases hy
      · rcases f12 with e' | e'
        · rw [e'] at hy; cases hy
        · exact (vulnerability e.1 (e'.2.2 y hy) (l7 y hy)).1 (e.2 y hy)
    · rcases k9 with e | e
      · rw [e] at hy; cases hy
      · rcases f13 with e' | e'
        · rw [e'] at hy; cases hy
        · exact (annotator e.1 ((e'.2.2 y hy).2.1 a ha) ((l8 y hy).1 a ha)).1 (e.2 y hy a ha)
  · rintro ⟨k1, k2, k3, k4, k5⟩
    exact ⟨.inr h1, .inr ⟨hv, fun m hm => (metadata hv (f1 m hm) (l2 m hm) (q1 m hm)).2 (k1 m hm)⟩,
      fun c hc => (component hv c (f3 c hc) (l3 c hc) (q2 c hc)).2 (k2 c hc),
      .inr ⟨hv, fun s hs => (service hv s (f5 s hs) (l4 s hs)).2 (k3 s hs)⟩,
      .inr ⟨h1, fun y hy => reference hv (f7 y hy) (l5 y hy)⟩,
      .inr ⟨hv, fun y hy => (f9 y hy).2.imp_right And.left⟩,
      f10.imp_right fun h => ⟨h.1, fun y hy => composition h.1 (h.2.2 y hy) (l6 y hy)⟩,
      f12.imp_right fun h => ⟨h.1, fun y hy => (vulnerability h.1 (h.2.2 y hy) (l7 y hy)).2 (k4 y hy)⟩,
      f13.imp_right fun h => ⟨h.1, fun y hy a ha => (annotator h.1 ((h.2.2 y hy).2.1 a ha) ((l8 y hy).1 a ha)).2 (k5 y hy a ha)⟩,
      f14.imp_right And.left, f15.imp_right And.left,
      f16.imp_right fun h => ⟨h.1, fun y hy => (h.2 y hy).2.2.imp_right And.left⟩, f17.imp_right And.left⟩

end Conforming

end Verif
