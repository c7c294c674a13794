import Verif.Proofs.Link

/-!
# Properties C01–C08: BOM-Links (link.go)

The grammar side of the statements comes from `Verif.Spec.Regex`.
-/

namespace Verif.Props
open Verif.Link Verif.Spec

/-! ## The scanners recognise the regular expressions of the source -/

theorem rep_hex (n : Nat) (s : Bytes) : (Re.rep n hexRe).Lang s ↔ HexN n s := by
  constructor
  · rintro ⟨xs, hl, hall, rfl⟩
    have : ∀ xs : List Bytes, (∀ x ∈ xs, hexRe.Lang x) → HexN xs.length xs.flatten := by
      intro xs
      induction xs with
      | nil => intro _; exact ⟨rfl, by simp⟩
      | cons x xs ih =>
        intro h
        obtain ⟨b, hb, rfl⟩ := h x (by simp)
        obtain ⟨h1, h2⟩ := ih (fun y hy => h y (by simp [hy]))
        refine ⟨by simp [← h1], ?_⟩
        intro c hc
        simp only [List.flatten_cons, List.cons_append, List.nil_append, List.mem_cons] at hc
        rcases hc with rfl | hc
        · rw [← hex_class]; exact hb
        · exact h2 c hc
    exact hl ▸ this xs hall
  · rintro ⟨hl, hall⟩
    refine ⟨s.map fun b => [b], by simpa using hl, ?_, ?_⟩
    · intro x hx
      obtain ⟨b, hb, rfl⟩ := List.mem_map.1 hx
      exact ⟨b, by rw [hex_class]; exact hall b hb, rfl⟩
    · clear hl hall
      induction s with
      | nil => rfl
      | cons b s ih => simp [← ih]

theorem star_cls (rs : List (Char × Char)) (s : Bytes) :
    (Re.star (.cls rs)).Lang s ↔ ∀ b ∈ s, inRanges rs b = true := by
  constructor
  · rintro ⟨xs, hall, rfl⟩ b hb
    obtain ⟨x, hx, hb⟩ := List.mem_flatten.1 hb
    obtain ⟨c, hc, rfl⟩ := hall x hx
    simp only [List.mem_singleton] at hb
    exact hb ▸ hc
  · intro hall
    refine ⟨s.map fun b => [b], ?_, ?_⟩
    · intro x hx
      obtain ⟨b, hb, rfl⟩ := List.mem_map.1 hx
      exact ⟨b, hall b hb, rfl⟩
    · clear hall
      induction s with
      | nil => rfl
      | cons b s ih => simp [← ih]

theorem uuid_lang (s : Bytes) : uuidRe.Lang s ↔ IsUUID s := by
  simp only [uuidRe, Re.Lang.eq_3, rep_hex, Re.Lang.eq_1]
  constructor
  · rintro ⟨a, _, rfl, ha, _, _, rfl, rfl, b, _, rfl, hb, _, _, rfl, rfl, c, _, rfl, hc, _, _, rfl, rfl,
      d, _, rfl, hd, _, e, rfl, rfl, he⟩
    exact ⟨a, b, c, d, e, ha, hb, hc, hd, he, by simp only [List.append_assoc]⟩
  · rintro ⟨a, b, c, d, e, ha, hb, hc, hd, he, rfl⟩
    refine ⟨a, _, ?_, ha, _, _, rfl, rfl, b, _, rfl, hb, _, _, rfl, rfl, c, _, rfl, hc, _, _, rfl, rfl,
      d, _, rfl, hd, _, e, rfl, rfl, he⟩
    simp only [List.append_assoc]

theorem version_lang (s : Bytes) : versionRe.Lang s ↔ IsVersion s := by
  simp only [versionRe, Re.Lang.eq_3, star_cls, Re.Lang.eq_2]
  constructor
  · rintro ⟨_, y, rfl, ⟨b, hb, rfl⟩, hy⟩
    rw [nonzero_digit_class] at hb
    simp only [Bool.and_eq_true, bne_iff_ne, ne_eq] at hb
    refine ⟨b, y, rfl, hb.2, ?_⟩
    intro c hc
    simp only [List.cons_append, List.nil_append, List.mem_cons] at hc
    rcases hc with rfl | hc
    · exact hb.1
    · rw [← digit_class]; exact hy c hc
  · rintro ⟨d, rest, rfl, hd, hall⟩
    refine ⟨[d], rest, rfl, ⟨d, ?_, rfl⟩, ?_⟩
    · rw [nonzero_digit_class, hall d (by simp)]; simp [hd]
    · intro b hb; rw [digit_class]; exact hall b (by simp [hb])

theorem ref_lang (s : Bytes) : refRe.Lang s ↔ s ≠ [] ∧ ∀ b ∈ s, isRefByte b = true := by
  simp only [refRe, Re.Lang.eq_3, star_cls, Re.Lang.eq_2, ref_class]
  constructor
  · rintro ⟨_, y, rfl, ⟨b, hb, rfl⟩, hy⟩
    refine ⟨by simp, ?_⟩
    intro c hc
    simp only [List.cons_append, List.nil_append, List.mem_cons] at hc
    rcases hc with rfl | hc
    · exact hb
    · exact hy c hc
  · rintro ⟨hne, hall⟩
    cases s with
    | nil => exact absurd rfl hne
    | cons b s => exact ⟨[b], s, rfl, ⟨b, hall b (by simp), rfl⟩, fun c hc => hall c (by simp [hc])⟩

/-! ## C01 -/

/-- The bom reference of the argument, when it is one of the linkable kinds. -/
inductive LinkableWith : Elem → Bytes → Prop where
  | component (c : Component) : LinkableWith (.component c) (utf8 c.bomRef)
  | componentPtr (c : Component) : LinkableWith (.componentPtr (some c)) (utf8 c.bomRef)
  | service (s : Service) : LinkableWith (.service s) (utf8 s.bomRef)
  | servicePtr (s : Service) : LinkableWith (.servicePtr (some s)) (utf8 s.bomRef)
  | vulnerability (v : Vulnerability) : LinkableWith (.vulnerability v) (utf8 v.bomRef)
  | vulnerabilityPtr (v : Vulnerability) : LinkableWith (.vulnerabilityPtr (some v)) (utf8 v.bomRef)

theorem linkTo_ok (serial : Bytes) (version : Int) (ref : Bytes) (l : BOMLink) :
    linkTo serial version ref = .ok l ↔ ref ≠ [] ∧ l = ⟨serial, version, ref⟩ := by
  unfold linkTo
  split
  · next h => simp [h]
  · next h => simp [h, eq_comm]

/-- **C01**: `NewBOMLink` succeeds exactly for an RFC-4122 serial in the language of the source's
regular expression, a version of at least 1, and either no element or a linkable element with a
non-empty reference; the link it returns holds exactly those three values. -/
theorem newBOMLink_ok_iff (serial : Bytes) (version : Int) (elem : Elem) (l : BOMLink) :
    newBOMLink serial version elem = .ok l ↔
      serialRe.Lang serial ∧ 1 ≤ version ∧
      ∃ ref, (elem = .nil ∧ ref = [] ∨ LinkableWith elem ref ∧ ref ≠ []) ∧
        l.serialNumber = serial ∧ l.version = version ∧ l.reference = ref := by
  have hser : serialRe.Lang serial ↔ serialNumberMatch serial = true := by
    rw [serialNumberMatch_iff]
    simp only [serialRe, Re.Lang.eq_3, Re.Lang.eq_1, uuid_lang]
    constructor
    · rintro ⟨_, u, rfl, rfl, hu⟩; exact ⟨u, hu, rfl⟩
    · rintro ⟨u, hu, rfl⟩; exact ⟨_, u, rfl, rfl, hu⟩
  have heq : ∀ r : Bytes, l = ⟨serial, version, r⟩ ↔
      (l.serialNumber = serial ∧ l.version = version ∧ l.reference = r) := by
    intro r; cases l; simp
  rw [hser]
  unfold newBOMLink
  by_cases hs : serialNumberMatch serial = true
  · by_cases hv : version < 1
    · simp [hs, hv]; omega
    · have hv' : 1 ≤ version := by omega
      simp only [hs, hv, hv', Bool.not_true, Bool.false_eq_true, if_false, true_and]
      have key : ∀ r, LinkableWith elem r → elem ≠ .nil → (∀ r', LinkableWith elem r' → r' = r) →
          (linkTo serial version r = .ok l ↔ ∃ ref, (elem = .nil ∧ ref = [] ∨ LinkableWith elem ref ∧
            ref ≠ []) ∧ l.serialNumber = serial ∧ l.version = version ∧ l.reference = ref) := by
        intro r hr hn huniq
        rw [linkTo_ok, heq]
        constructor
        · rintro ⟨h1, h2⟩; exact ⟨r, Or.inr ⟨hr, h1⟩, h2⟩
        · rintro ⟨ref, h | h, h2⟩
          · exact absurd h.1 hn
          · obtain rfl := huniq ref h.1; exact ⟨h.2, h2⟩
      cases elem with
      | nil =>
        simp only [Outcome.ok.injEq]
        rw [eq_comm, heq]
        constructor
        · intro h; exact ⟨[], Or.inl ⟨trivial, rfl⟩, h⟩
        · rintro ⟨ref, h | h, h2⟩
          · rw [h.2] at h2; exact h2
          · nomatch h.1
      | component c => exact key _ (.component c) (by simp) (by rintro r' ⟨⟩; rfl)
      | componentPtr c =>
        cases c with
        | none => simp only [reduceCtorEq, false_iff]; rintro ⟨ref, ⟨h, -⟩ | ⟨h, -⟩, -⟩ <;> nomatch h
        | some c => exact key _ (.componentPtr c) (by simp) (by rintro r' ⟨⟩; rfl)
      | service s => exact key _ (.service s) (by simp) (by rintro r' ⟨⟩; rfl)
      | servicePtr s =>
        cases s with
        | none => simp only [reduceCtorEq, false_iff]; rintro ⟨ref, ⟨h, -⟩ | ⟨h, -⟩, -⟩ <;> nomatch h
        | some c => exact key _ (.servicePtr c) (by simp) (by rintro r' ⟨⟩; rfl)
      | vulnerability v => exact key _ (.vulnerability v) (by simp) (by rintro r' ⟨⟩; rfl)
      | vulnerabilityPtr v =>
        cases v with
        | none => simp only [reduceCtorEq, false_iff]; rintro ⟨ref, ⟨h, -⟩ | ⟨h, -⟩, -⟩ <;> nomatch h
        | some c => exact key _ (.vulnerabilityPtr c) (by simp) (by rintro r' ⟨⟩; rfl)
      | other => simp only [reduceCtorEq, false_iff]; rintro ⟨ref, ⟨h, -⟩ | ⟨h, -⟩, -⟩ <;> nomatch h
  · simp [hs]

/-- A typed nil pointer passed as element makes `NewBOMLink` panic (once serial and version are
valid): it dereferences the pointer. -/
theorem newBOMLink_nil_pointer_panics (serial : Bytes) (version : Int)
    (hs : serialRe.Lang serial) (hv : 1 ≤ version) :
    newBOMLink serial version (.componentPtr none) = .panic ∧
    newBOMLink serial version (.servicePtr none) = .panic ∧
    newBOMLink serial version (.vulnerabilityPtr none) = .panic := by
  have : newBOMLink serial version .nil = .ok ⟨serial, version, []⟩ :=
    (newBOMLink_ok_iff serial version .nil ⟨serial, version, []⟩).2
      ⟨hs, hv, [], Or.inl ⟨rfl, rfl⟩, rfl, rfl, rfl⟩
  unfold newBOMLink at this ⊢
  have hv' : ¬ version < 1 := by omega
  by_cases hm : serialNumberMatch serial = true
  · simp [hm, hv']
  · simp [hm] at this

/-- A serial number used by the examples below. -/
def exampleSerial : Bytes := utf8 "urn:uuid:bd064d10-ba4c-4d8d-a5a2-9c8d5bd3a4ff"

example : newBOMLink exampleSerial 3 (.component { bomRef := "pkg:a/b#c d" }) =
    .ok ⟨exampleSerial, 3, utf8 "pkg:a/b#c d"⟩ := by decide +kernel

/-! ## C02, C03, C05, C06, C08: printing -/

/-- A link as its accessors show it: what `NewBOMLink` guarantees of its result, with a version in the
range of Go's `int`. The reference may be any byte string. -/
structure WellFormedLink (l : BOMLink) : Prop where
  serial : serialRe.Lang l.serialNumber
  version : 1 ≤ l.version
  int64 : InInt64 l.version

theorem serialRe_iff (s : Bytes) : serialRe.Lang s ↔ serialNumberMatch s = true := by
  rw [serialNumberMatch_iff]
  simp only [serialRe, Re.Lang.eq_3, Re.Lang.eq_1, uuid_lang]
  constructor
  · rintro ⟨_, u, rfl, rfl, hu⟩; exact ⟨u, hu, rfl⟩
  · rintro ⟨u, hu, rfl⟩; exact ⟨_, u, rfl, rfl, hu⟩

theorem wellFormed_iff (l : BOMLink) : WellFormedLink l ↔ Valid l := by
  constructor
  · rintro ⟨h1, h2, h3⟩; exact ⟨(serialRe_iff _).1 h1, h2, h3.2⟩
  · rintro ⟨h1, h2, h3⟩; exact ⟨(serialRe_iff _).2 h1, h2, ⟨by omega, h3⟩⟩

/-- Every link `NewBOMLink` returns (for an `int` version) is well-formed. -/
theorem newBOMLink_wellFormed {serial : Bytes} {version : Int} {elem : Elem} {l : BOMLink}
    (hv : InInt64 version) (h : newBOMLink serial version elem = .ok l) : WellFormedLink l := by
  obtain ⟨h1, h2, ref, -, rfl, rfl, rfl⟩ := (newBOMLink_ok_iff _ _ _ _).1 h
  exact ⟨h1, h2, hv⟩

/-- **C02**: `ParseBOMLink` of a printed link returns that link, for every reference byte string. -/
theorem parseBOMLink_string (l : BOMLink) (h : WellFormedLink l) :
    parseBOMLink l.string = .ok l := parse_string ((wellFormed_iff l).1 h)

/-- **C02** for the API: whatever `NewBOMLink` returns, printing and parsing gives it back. -/
theorem parse_of_newBOMLink {serial : Bytes} {version : Int} {elem : Elem} {l : BOMLink}
    (hv : InInt64 version) (h : newBOMLink serial version elem = .ok l) :
    parseBOMLink l.string = .ok l :=
  parseBOMLink_string l (newBOMLink_wellFormed hv h)

example : ∃ l, newBOMLink exampleSerial 3 (.component { bomRef := "pkg:a/b#c d+%é" }) = .ok l ∧
    InInt64 3 ∧ WellFormedLink l ∧ l.reference = utf8 "pkg:a/b#c d+%é" := by
  have h : newBOMLink exampleSerial 3 (.component { bomRef := "pkg:a/b#c d+%é" }) =
    .ok ⟨exampleSerial, 3, utf8 "pkg:a/b#c d+%é"⟩ := by decide +kernel
  exact ⟨_, h, by decide, newBOMLink_wellFormed (by decide) h, rfl⟩

/-- **C03**: `IsBOMLink` accepts every printed link (of any version, not only `int`-sized ones). -/
theorem isBOMLink_string (l : BOMLink) (hs : serialRe.Lang l.serialNumber) (hv : 1 ≤ l.version) :
    isBOMLink l.string = true := by
  simp [isBOMLink, findSubmatch_string ((serialRe_iff _).1 hs) hv]

/-- **C04**: a parsed link is one `NewBOMLink` could have returned: its serial is in the language, its
version is a positive `int`, and building it again, from no element when the reference is empty and
from any element carrying that reference otherwise, gives the same link. -/
theorem parseBOMLink_wellFormed {s : Bytes} {l : BOMLink} (h : parseBOMLink s = .ok l) :
    WellFormedLink l ∧
    (l.reference = [] → newBOMLink l.serialNumber l.version .nil = .ok l) ∧
    (∀ elem, LinkableWith elem l.reference → l.reference ≠ [] →
      newBOMLink l.serialNumber l.version elem = .ok l) := by
  have hw := (wellFormed_iff l).2 (parse_valid h)
  refine ⟨hw, ?_, ?_⟩
  · intro hr
    exact (newBOMLink_ok_iff _ _ _ _).2 ⟨hw.serial, hw.version, [], Or.inl ⟨rfl, rfl⟩, rfl, rfl, hr⟩
  · intro elem he hr
    exact (newBOMLink_ok_iff _ _ _ _).2
      ⟨hw.serial, hw.version, l.reference, Or.inr ⟨he, hr⟩, rfl, rfl, rfl⟩

example : parseBOMLink (utf8 "urn:cdx:bd064d10-ba4c-4d8d-a5a2-9c8d5bd3a4ff/3#a%2fb+c") =
    .ok ⟨exampleSerial, 3, utf8 "a/b c"⟩ := by decide +kernel

/-- **C05**: printing what `ParseBOMLink` returned, and parsing again, changes nothing. -/
theorem parseBOMLink_canonical {s : Bytes} {l : BOMLink} (h : parseBOMLink s = .ok l) :
    parseBOMLink l.string = .ok l := parse_string (parse_valid h)

/-- Printing is not the identity on accepted strings (so C05 is not about identical text): the
lower-case escape is rewritten. -/
example : (BOMLink.mk exampleSerial 3 (utf8 "a/b c")).string ≠
    utf8 "urn:cdx:bd064d10-ba4c-4d8d-a5a2-9c8d5bd3a4ff/3#a%2fb+c" := by decide +kernel

/-- **C06**: well-formed links with equal strings are equal. -/
theorem string_injective {l₁ l₂ : BOMLink} (h₁ : WellFormedLink l₁) (h₂ : WellFormedLink l₂)
    (h : l₁.string = l₂.string) : l₁ = l₂ := by
  have e₁ := parseBOMLink_string l₁ h₁
  have e₂ := parseBOMLink_string l₂ h₂
  rw [h, e₂] at e₁
  exact (Except.ok.inj e₁).symm

/-- A hexadecimal UUID has no `#`. -/
theorem uuid_no_hash {u : Bytes} (h : IsUUID u) : (35 : UInt8) ∉ u := by
  obtain ⟨a, b, c, d, e, ha, hb, hc, hd, he, rfl⟩ := h
  have hx : ∀ {n} {x : Bytes}, HexN n x → (35 : UInt8) ∉ x := fun hx hm => by
    have := hx.2 35 hm; revert this; decide
  have hd' : (35 : UInt8) ∉ utf8 "-" := by decide
  simp only [List.mem_append, not_or]
  exact ⟨⟨⟨⟨⟨⟨⟨⟨hx ha, hd'⟩, hx hb⟩, hd'⟩, hx hc⟩, hd'⟩, hx hd⟩, hd'⟩, hx he⟩

/-- **C08** (first half): the printed link contains `#` exactly when the reference is not empty. -/
theorem string_hash_iff (l : BOMLink) (h : WellFormedLink l) :
    (35 : UInt8) ∈ l.string ↔ l.reference ≠ [] := by
  obtain ⟨u, hu, hs⟩ := (serialNumberMatch_iff _).1 ((serialRe_iff _).1 h.serial)
  have h1 : (35 : UInt8) ∉ utf8 "urn:cdx:" := by decide
  have h2 : (35 : UInt8) ∉ utf8 "/" := by decide
  rw [string_eq, hs, trimURN_append]
  simp only [List.mem_append, h1, h2, uuid_no_hash hu, formatInt_no_hash h.version, false_or, or_false]
  constructor
  · intro hm hr
    rw [if_pos (by simp [hr, queryEscape])] at hm
    cases hm
  · intro hr
    rw [if_neg (fun hq => hr (queryEscape_eq_nil hq))]
    simp

/-- **C08** (second half): the text before the first `#` is determined by serial and version alone: no
reference can change it, and there is at most one `#`. -/
theorem string_prefix (l : BOMLink) (h : WellFormedLink l) :
    l.string.takeWhile (· ≠ 35) = (BOMLink.mk l.serialNumber l.version []).string ∧
    l.string.count 35 ≤ 1 := by
  obtain ⟨u, hu, hs⟩ := (serialNumberMatch_iff _).1 ((serialRe_iff _).1 h.serial)
  have h1 : (35 : UInt8) ∉ utf8 "urn:cdx:" := by decide
  have h2 : (35 : UInt8) ∉ utf8 "/" := by decide
  have hp : ∀ p q : Bytes, (35 : UInt8) ∉ p → (q = [] ∨ ∃ t, q = 35 :: t) →
      (p ++ q).takeWhile (· ≠ 35) = p := by
    intro p q hp hq
    induction p with
    | nil => rcases hq with rfl | ⟨t, rfl⟩ <;> simp
    | cons b p ih =>
      simp only [List.mem_cons, not_or] at hp
      have := ih hp.2
      rw [List.cons_append, List.takeWhile_cons_of_pos (by simpa using Ne.symm hp.1), this]
  have hno : (35 : UInt8) ∉ utf8 "urn:cdx:" ++ u ++ utf8 "/" ++ formatInt l.version := by
    simp only [List.mem_append, h1, h2, uuid_no_hash hu, formatInt_no_hash h.version, or_self,
      not_false_eq_true]
  rw [string_eq, string_eq, hs, trimURN_append]
  constructor
  · rw [hp _ _ hno]
    · simp [queryEscape]
    · split
      · exact Or.inl rfl
      · exact Or.inr ⟨_, rfl⟩
  · rw [List.count_append, List.count_eq_zero_of_not_mem hno]
    split
    · simp
    · simp [List.count_eq_zero_of_not_mem (queryEscape_no_hash _)]

example : WellFormedLink ⟨exampleSerial, 7, utf8 "x#y"⟩ :=
  ⟨(serialRe_iff _).2 (by decide +kernel), by decide, by decide⟩

/-! ## C07 -/

/-- **C07** (recognition): `IsBOMLink` accepts exactly the language of the regular expression of
link.go:112. -/
theorem isBOMLink_iff (s : Bytes) : isBOMLink s = true ↔ bomLinkRe.Lang s := by
  have hlang : bomLinkRe.Lang s ↔ ∃ m : Matches, findSubmatch s = some m := by
    simp only [bomLinkRe, Re.Lang.eq_3, Re.Lang.eq_1, Re.Lang.eq_6, uuid_lang, version_lang, ref_lang,
      findSubmatch_iff]
    constructor
    · rintro ⟨_, _, rfl, rfl, u, _, rfl, hu, _, _, rfl, rfl, v, r, rfl, hv, rfl | ⟨_, ref, rfl, rfl, hne, hr⟩⟩
      · exact ⟨⟨u, v, []⟩, hu, hv, by simp, by simp⟩
      · refine ⟨⟨u, v, ref⟩, hu, hv, hr, ?_⟩
        have e : utf8 "#" = [35] := by decide
        simp [hne, e]
    · rintro ⟨⟨u, v, ref⟩, hu, hv, hr, rfl⟩
      refine ⟨_, _, by simp only [List.append_assoc]; rfl, rfl, u, _, rfl, hu, _, _, rfl, rfl, v, _, rfl,
        hv, ?_⟩
      by_cases h : ref = []
      · exact Or.inl (by simp [h])
      · exact Or.inr ⟨_, ref, by have e : utf8 "#" = [35] := (by decide); simp [h, e], rfl, h, hr⟩
  rw [hlang, isBOMLink, Option.isSome_iff_exists]

/-- **C07** (parsing): `ParseBOMLink` succeeds exactly on strings `urn:cdx:<uuid>/<version>[#<ref>]`
of that language whose version numeral is at most 2^63-1 and whose reference is well escaped. -/
theorem parseBOMLink_ok_iff (s : Bytes) :
    (∃ l, parseBOMLink s = .ok l) ↔
    ∃ u v ref, uuidRe.Lang u ∧ versionRe.Lang v ∧ (ref = [] ∨ refRe.Lang ref) ∧
      s = utf8 "urn:cdx:" ++ u ++ utf8 "/" ++ v ++ (if ref = [] then [] else utf8 "#" ++ ref) ∧
      ofDigits (v.map fun b => b.toNat - 48) ≤ 2 ^ 63 - 1 ∧ WellEscaped ref := by
  have e : utf8 "#" = [35] := by decide
  constructor
  · rintro ⟨l, h⟩
    unfold parseBOMLink at h
    split at h
    · cases h
    · next m hm =>
      obtain ⟨hu, hv, hr, hs⟩ := findSubmatch_sound hm
      split at h
      · cases h
      · next v hat =>
        split at h
        · cases h
        · next r hq =>
          refine ⟨m.serial, m.version, m.ref, (uuid_lang _).2 hu, (version_lang _).2 hv, ?_, ?_, ?_, ?_⟩
          · by_cases h0 : m.ref = []
            · exact Or.inl h0
            · exact Or.inr ((ref_lang _).2 ⟨h0, hr⟩)
          · rw [hs, e]; rfl
          · unfold atoi at hat
            dsimp only at hat
            split at hat
            · next hle => exact hle
            · cases hat
          · rw [wellEscaped_iff, hq]; rfl
  · rintro ⟨u, v, ref, hu, hv, hr, rfl, hle, hw⟩
    rw [e]
    have hr' : ∀ b ∈ ref, isRefByte b = true := by
      rcases hr with rfl | hr
      · simp
      · exact ((ref_lang _).1 hr).2
    have := findSubmatch_complete ((uuid_lang _).1 hu) ((version_lang _).1 hv) hr'
    have hat : atoi v = some (ofDigits (v.map digitVal) : Int) := by
      unfold atoi; exact if_pos hle
    rw [wellEscaped_iff] at hw
    obtain ⟨r, hq⟩ := Option.isSome_iff_exists.1 hw
    refine ⟨⟨utf8 "urn:uuid:" ++ u, ofDigits (v.map digitVal), r⟩, ?_⟩
    unfold parseBOMLink
    simp only [List.cons_append, List.nil_append]
    rw [this]
    simp only [hat, hq]

/-- The two reasons are real: accepted by `IsBOMLink` yet refused by `ParseBOMLink`. -/
theorem isBOMLink_but_not_parsed :
    (∃ s, isBOMLink s = true ∧ parseBOMLink s = .error "failed to parse version") ∧
    (∃ s, isBOMLink s = true ∧ parseBOMLink s = .error "failed to unescape reference") :=
  ⟨⟨utf8 "urn:cdx:bd064d10-ba4c-4d8d-a5a2-9c8d5bd3a4ff/9223372036854775808", by decide +kernel,
      by decide +kernel⟩,
   ⟨utf8 "urn:cdx:bd064d10-ba4c-4d8d-a5a2-9c8d5bd3a4ff/1#a%zz", by decide +kernel, by decide +kernel⟩⟩

end Verif.Props
