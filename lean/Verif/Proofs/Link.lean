import Verif.Spec.Regex

/-! Helper lemmas about the BOM-Link scanners (no property statements here). -/

namespace Verif.Link
open Verif.Spec

theorem lit_iff : ∀ (p s r : Bytes), lit p s = some r ↔ s = p ++ r := by
  intro p
  induction p with
  | nil => intro s r; simp [lit]
  | cons a p ih =>
    intro s r
    cases s with
    | nil => simp [lit]
    | cons b s =>
      by_cases h : a = b
      · subst h; simp [lit, ih]
      · simp [lit, h, Ne.symm h]

theorem lit_append (p r : Bytes) : lit p (p ++ r) = some r := (lit_iff _ _ _).2 rfl

theorem takeHex_iff : ∀ (n : Nat) (s x r : Bytes), takeHex n s = some (x, r) ↔
    s = x ++ r ∧ x.length = n ∧ ∀ b ∈ x, isLowerHex b = true := by
  intro n
  induction n with
  | zero =>
    intro s x r
    simp only [takeHex, Option.some.injEq, Prod.mk.injEq, List.length_eq_zero_iff]
    constructor
    · rintro ⟨rfl, rfl⟩; simp
    · rintro ⟨h, rfl, -⟩; simpa using h
  | succ n ih =>
    intro s x r
    cases s with
    | nil =>
      simp only [takeHex]
      constructor
      · intro h; simp at h
      · rintro ⟨h, hl, -⟩
        cases x with
        | nil => simp at hl
        | cons => simp at h
    | cons b s =>
      simp only [takeHex]
      by_cases hb : isLowerHex b = true
      · rw [if_pos hb]
        cases ht : takeHex n s with
        | none =>
          simp only [reduceCtorEq, false_iff]
          rintro ⟨h, hl, hall⟩
          cases x with
          | nil => simp at hl
          | cons c x =>
            simp only [List.cons_append, List.cons.injEq] at h
            have := (ih s x r).2 ⟨h.2, by simpa using hl, fun b hb => hall b (by simp [hb])⟩
            rw [ht] at this; cases this
        | some p =>
          obtain ⟨y, q⟩ := p
          have hy := (ih s y q).1 ht
          simp only [Option.some.injEq, Prod.mk.injEq]
          constructor
          · rintro ⟨rfl, rfl⟩
            refine ⟨by rw [hy.1]; rfl, by simp [hy.2.1], ?_⟩
            intro c hc
            rcases List.mem_cons.1 hc with rfl | hc
            · exact hb
            · exact hy.2.2 c hc
          · rintro ⟨h, hl, hall⟩
            cases x with
            | nil => simp at hl
            | cons c x =>
              simp only [List.cons_append, List.cons.injEq] at h
              have := (ih s x r).2 ⟨h.2, by simpa using hl, fun b hb => hall b (by simp [hb])⟩
              rw [ht] at this
              simp only [Option.some.injEq, Prod.mk.injEq] at this
              exact ⟨by rw [h.1, this.1], this.2⟩
      · rw [if_neg hb]
        simp only [reduceCtorEq, false_iff]
        rintro ⟨h, hl, hall⟩
        cases x with
        | nil => simp at hl
        | cons c x =>
          simp only [List.cons_append, List.cons.injEq] at h
          exact hb (h.1 ▸ hall c (by simp))

/-- `n` bytes of `[\da-f]`. -/
def HexN (n : Nat) (x : Bytes) : Prop := x.length = n ∧ ∀ b ∈ x, isLowerHex b = true

/-- 8-4-4-4-12 lower-case hexadecimal digits. -/
def IsUUID (u : Bytes) : Prop :=
  ∃ a b c d e, HexN 8 a ∧ HexN 4 b ∧ HexN 4 c ∧ HexN 4 d ∧ HexN 12 e ∧
    u = a ++ utf8 "-" ++ b ++ utf8 "-" ++ c ++ utf8 "-" ++ d ++ utf8 "-" ++ e

theorem takeHex_append {n : Nat} {x : Bytes} (h : HexN n x) (r : Bytes) :
    takeHex n (x ++ r) = some (x, r) := (takeHex_iff _ _ _ _).2 ⟨rfl, h⟩

theorem takeUUID_append {u : Bytes} (h : IsUUID u) (r : Bytes) :
    takeUUID (u ++ r) = some (u, r) := by
  obtain ⟨a, b, c, d, e, ha, hb, hc, hd, he, rfl⟩ := h
  simp only [takeUUID, List.append_assoc, takeHex_append ha, takeHex_append hb, takeHex_append hc,
    takeHex_append hd, takeHex_append he, lit_append, Option.bind_eq_bind, Option.bind_some,
    Option.pure_def]

theorem takeUUID_sound {s u r : Bytes} (h : takeUUID s = some (u, r)) : s = u ++ r ∧ IsUUID u := by
  simp only [takeUUID, Option.bind_eq_bind, Option.bind_eq_some_iff, Option.pure_def,
    Option.some.injEq, Prod.mk.injEq, Prod.exists] at h
  obtain ⟨a, s1, ha, s2, h2, b, s3, hb, s4, h4, c, s5, hc, s6, h6, d, s7, hd, s8, h8, e, s9, he,
    rfl, rfl⟩ := h
  rw [takeHex_iff] at ha hb hc hd he
  rw [lit_iff] at h2 h4 h6 h8
  refine ⟨?_, a, b, c, d, e, ha.2, hb.2, hc.2, hd.2, he.2, rfl⟩
  rw [ha.1, h2, hb.1, h4, hc.1, h6, hd.1, h8, he.1]
  simp only [List.append_assoc]

theorem takeUUID_iff (s u r : Bytes) : takeUUID s = some (u, r) ↔ s = u ++ r ∧ IsUUID u :=
  ⟨takeUUID_sound, fun ⟨h, hu⟩ => h ▸ takeUUID_append hu r⟩

theorem serialNumberMatch_iff (s : Bytes) :
    serialNumberMatch s = true ↔ ∃ u, IsUUID u ∧ s = utf8 "urn:uuid:" ++ u := by
  unfold serialNumberMatch
  constructor
  · intro h
    split at h
    · cases h
    · next r hr =>
      split at h
      · next u hu =>
        rw [takeUUID_iff] at hu
        rw [lit_iff] at hr
        exact ⟨u, hu.2, by rw [hr, hu.1]; simp⟩
      · cases h
  · rintro ⟨u, hu, rfl⟩
    rw [lit_append]
    have := takeUUID_append hu []
    rw [List.append_nil] at this
    simp only [this]

/-- A decimal numeral without leading zero. -/
def IsVersion (v : Bytes) : Prop :=
  ∃ d rest, v = d :: rest ∧ d ≠ 48 ∧ ∀ b ∈ v, isDigit b = true

theorem findSubmatch_sound {s : Bytes} {m : Matches} (h : findSubmatch s = some m) :
    IsUUID m.serial ∧ IsVersion m.version ∧ (∀ b ∈ m.ref, isRefByte b = true) ∧
    s = utf8 "urn:cdx:" ++ m.serial ++ utf8 "/" ++ m.version ++
      (if m.ref = [] then [] else 35 :: m.ref) := by
  simp only [findSubmatch, Option.bind_eq_bind, Option.bind_eq_some_iff, Prod.exists] at h
  obtain ⟨s1, h1, serial, s2, h2, s3, h3, h⟩ := h
  rw [lit_iff] at h1 h3
  rw [takeUUID_iff] at h2
  have hs3 := List.takeWhile_append_dropWhile (p := isDigit) (l := s3)
  have hall : ∀ b ∈ s3.takeWhile isDigit, isDigit b = true := fun b hb => by
    have := List.all_takeWhile (p := isDigit) (l := s3)
    exact (List.all_eq_true.1 this) b hb
  split at h
  · cases h
  · next d tl hv =>
    split at h
    · cases h
    · next hd =>
      have hver : IsVersion (s3.takeWhile isDigit) := ⟨d, tl, hv, hd, hall⟩
      split at h
      · next hr =>
        cases h
        refine ⟨h2.2, hver, by simp, ?_⟩
        rw [hr, List.append_nil] at hs3
        simp only [hs3, if_true, List.append_nil]
        rw [h1, h2.1, h3]; simp only [List.append_assoc]
      · next hh ref hr =>
        split at h
        · next hc =>
          simp only [Bool.and_eq_true, decide_eq_true_eq, Bool.not_eq_true', List.isEmpty_eq_false_iff,
            List.all_eq_true] at hc
          obtain ⟨⟨rfl, hne⟩, hra⟩ := hc
          cases h
          refine ⟨h2.2, hver, hra, ?_⟩
          rw [hr] at hs3
          simp only [if_neg hne]
          rw [h1, h2.1, h3, List.append_assoc, hs3]; simp only [List.append_assoc]
        · cases h

theorem span_digits {v r : Bytes} (hv : ∀ b ∈ v, isDigit b = true)
    (hr : ∀ b t, r = b :: t → isDigit b = false) : (v ++ r).takeWhile isDigit = v ∧ (v ++ r).dropWhile isDigit = r := by
  induction v with
  | nil =>
    cases r with
    | nil => exact ⟨rfl, rfl⟩
    | cons b t => simp [hr b t rfl]
  | cons a v ih =>
    have ha := hv a (by simp)
    have := ih (fun b hb => hv b (by simp [hb]))
    simp [ha, this.1, this.2]

theorem findSubmatch_complete {serial version ref : Bytes} (hu : IsUUID serial) (hv : IsVersion version)
    (hr : ∀ b ∈ ref, isRefByte b = true) :
    findSubmatch (utf8 "urn:cdx:" ++ serial ++ utf8 "/" ++ version ++
      (if ref = [] then [] else 35 :: ref)) = some ⟨serial, version, ref⟩ := by
  obtain ⟨d, tl, hd, hd0, hall⟩ := hv
  have hspan : (version ++ (if ref = [] then [] else 35 :: ref)).takeWhile isDigit = version ∧
      (version ++ (if ref = [] then [] else 35 :: ref)).dropWhile isDigit =
        (if ref = [] then [] else 35 :: ref) := by
    apply span_digits hall
    intro b t h
    split at h
    · cases h
    · cases h; decide
  simp only [findSubmatch, List.append_assoc, lit_append, Option.bind_eq_bind, Option.bind_some,
    takeUUID_append hu, hspan.1, hspan.2]
  subst hd
  simp only [if_neg hd0]
  by_cases h : ref = []
  · simp [h]
  · simp only [if_neg h]
    rw [if_pos]
    simp [h]
    exact hr

theorem findSubmatch_iff (s : Bytes) (m : Matches) : findSubmatch s = some m ↔
    (IsUUID m.serial ∧ IsVersion m.version ∧ (∀ b ∈ m.ref, isRefByte b = true) ∧
    s = utf8 "urn:cdx:" ++ m.serial ++ utf8 "/" ++ m.version ++
      (if m.ref = [] then [] else 35 :: m.ref)) := by
  constructor
  · exact findSubmatch_sound
  · rintro ⟨hu, hv, hr, rfl⟩
    exact findSubmatch_complete hu hv hr

/-! ### Facts about all 256 bytes -/

theorem forall_byte {p : UInt8 → Prop} (h : ∀ n : Fin 256, p (UInt8.ofNat n)) (b : UInt8) : p b := by
  have := h ⟨b.toNat, b.toNat_lt⟩
  simpa using this

theorem hex_class (b : UInt8) : inRanges [('0', '9'), ('a', 'f')] b = isLowerHex b := by
  revert b; apply forall_byte; decide +kernel

theorem digit_class (b : UInt8) : inRanges [('0', '9')] b = isDigit b := by
  revert b; apply forall_byte; decide +kernel

theorem nonzero_digit_class (b : UInt8) :
    inRanges [('1', '9')] b = (isDigit b && b != 48) := by
  revert b; apply forall_byte; decide +kernel

theorem ref_class (b : UInt8) : inRanges refClass b = isRefByte b := by
  revert b; apply forall_byte; decide +kernel

theorem escape_ref_bytes (b : UInt8) : (escapeByte b).all isRefByte = true := by
  revert b; apply forall_byte; decide +kernel

theorem escape_no_hash (b : UInt8) : (escapeByte b).contains 35 = false := by
  revert b; apply forall_byte; decide +kernel

theorem escape_ne_nil (b : UInt8) : escapeByte b ≠ [] := by
  unfold escapeByte; split
  · simp
  · split <;> simp

theorem unhex_class (b : UInt8) :
    inRanges [('0', '9'), ('a', 'f'), ('A', 'F')] b = (unhex b).isSome := by
  revert b; apply forall_byte; decide +kernel

/-- Unescaping undoes the escaping of one byte, whatever follows. -/
theorem unescape_escapeByte (b : UInt8) (rest : Bytes) :
    queryUnescape (escapeByte b ++ rest) = (queryUnescape rest).map (b :: ·) := by
  by_cases h32 : b = 32
  · subst h32
    simp only [escapeByte, if_pos, List.cons_append, List.nil_append]
    rw [queryUnescape]
    · cases queryUnescape rest <;> simp
    · intro h l r h1; cases h1
    · intro h1; cases h1
  · by_cases hu : isUnreserved b = true
    · have h37 : b ≠ 37 := by rintro rfl; revert hu; decide
      have h43 : b ≠ 43 := by rintro rfl; revert hu; decide
      simp only [escapeByte, if_neg h32, if_pos hu, List.cons_append, List.nil_append]
      rw [queryUnescape]
      · cases queryUnescape rest <;> simp [h43]
      · intro h l r h1; exact absurd h1 h37
      · intro h1; exact absurd h1 h37
    · have hx : ∀ b : UInt8, unhex (upperHex (b.toNat / 16)) = some (b.toNat / 16) ∧
          unhex (upperHex (b.toNat % 16)) = some (b.toNat % 16) ∧
          UInt8.ofNat (16 * (b.toNat / 16) + b.toNat % 16) = b := by
        apply forall_byte; decide +kernel
      simp only [escapeByte, if_neg h32, if_neg hu, List.cons_append, List.nil_append]
      rw [queryUnescape]
      rw [(hx b).1, (hx b).2.1]
      simp only [(hx b).2.2]
      cases queryUnescape rest <;> simp

theorem unescape_escape (s : Bytes) : queryUnescape (queryEscape s) = some s := by
  induction s with
  | nil => simp [queryEscape, queryUnescape]
  | cons b s ih =>
    have : queryEscape (b :: s) = escapeByte b ++ queryEscape s := by simp [queryEscape]
    rw [this, unescape_escapeByte, ih]; rfl

theorem queryEscape_refBytes (s : Bytes) : ∀ b ∈ queryEscape s, isRefByte b = true := by
  intro b hb
  simp only [queryEscape, List.mem_flatMap] at hb
  obtain ⟨a, -, hb⟩ := hb
  exact List.all_eq_true.1 (escape_ref_bytes a) b hb

theorem queryEscape_no_hash (s : Bytes) : (35 : UInt8) ∉ queryEscape s := by
  intro hb
  simp only [queryEscape, List.mem_flatMap] at hb
  obtain ⟨a, -, hb⟩ := hb
  have := escape_no_hash a
  simp_all

theorem queryEscape_eq_nil {s : Bytes} (h : queryEscape s = []) : s = [] := by
  have := unescape_escape s
  rw [h, queryUnescape] at this
  exact (Option.some.inj this).symm

theorem wellEscaped_iff (s : Bytes) : WellEscaped s ↔ (queryUnescape s).isSome = true := by
  constructor
  · intro h
    induction h with
    | nil => simp [queryUnescape]
    | @plain b s hb hs ih =>
      rw [queryUnescape]
      · cases hq : queryUnescape s with
        | none => rw [hq] at ih; cases ih
        | some r => rfl
      · intro h l r h1; exact absurd h1 hb
      · intro h1; exact absurd h1 hb
    | @esc h l s hh hl hs ih =>
      rw [queryUnescape]
      rw [unhex_class] at hh hl
      obtain ⟨x, hx⟩ := Option.isSome_iff_exists.1 hh
      obtain ⟨y, hy⟩ := Option.isSome_iff_exists.1 hl
      obtain ⟨z, hz⟩ := Option.isSome_iff_exists.1 ih
      simp [hx, hy, hz]
  · intro h
    induction s using queryUnescape.induct with
    | case1 => exact .nil
    | case2 h' l rest hi lo hlo hhi r hr ih =>
      exact .esc (by rw [unhex_class, hhi]; rfl) (by rw [unhex_class, hlo]; rfl) (ih (by rw [hr]; rfl))
    | case3 h' l rest hi lo hlo hhi hr ih =>
      rw [queryUnescape] at h; simp [hhi, hlo, hr] at h
    | case4 h' l rest hne =>
      rw [queryUnescape] at h
      split at h
      · next a b ha hb => exact absurd hb (hne a b ha)
      · cases h
    | case5 rest hne => 
      rw [queryUnescape] at h
      · cases h
      · exact hne
    | case6 b rest h1 h2 r hr ih =>
      exact .plain (fun hb => h2 hb) (ih (by rw [hr]; rfl))
    | case7 b rest h1 h2 hr ih =>
      rw [queryUnescape] at h
      · simp [hr] at h
      · exact h1
      · exact h2

theorem queryUnescape_ne_nil {s r : Bytes} (h : queryUnescape s = some r) (hs : s ≠ []) : r ≠ [] := by
  intro hr
  subst hr
  revert h
  fun_cases queryUnescape s <;> simp_all

/-! ### Numerals -/

theorem digitByte_val {d : Nat} (h : d < 10) : digitVal (digitByte d) = d := by
  have : ∀ d : Fin 10, digitVal (digitByte d) = d := by decide
  exact this ⟨d, h⟩

theorem digitByte_isDigit {d : Nat} (h : d < 10) : isDigit (digitByte d) = true := by
  have : ∀ d : Fin 10, isDigit (digitByte d) = true := by decide
  exact this ⟨d, h⟩

theorem digitByte_eq_48 {d : Nat} (h : d < 10) : digitByte d = 48 ↔ d = 0 := by
  have : ∀ d : Fin 10, digitByte d = 48 ↔ d.val = 0 := by decide
  exact this ⟨d, h⟩

theorem digitVal_byte (b : UInt8) (h : isDigit b = true) :
    digitByte (digitVal b) = b ∧ digitVal b < 10 ∧ (digitVal b = 0 ↔ b = 48) := by
  revert h; revert b; apply forall_byte; decide +kernel

theorem map_digitVal_byte (ds : List Nat) (h : ∀ d ∈ ds, d < 10) :
    (ds.map digitByte).map digitVal = ds := by
  induction ds with
  | nil => rfl
  | cons d ds ih =>
    simp only [List.map_cons, List.cons.injEq]
    exact ⟨digitByte_val (h d (by simp)), ih fun x hx => h x (by simp [hx])⟩

theorem map_digitByte_val (bs : Bytes) (h : ∀ b ∈ bs, isDigit b = true) :
    (bs.map digitVal).map digitByte = bs := by
  induction bs with
  | nil => rfl
  | cons d ds ih =>
    simp only [List.map_cons, List.cons.injEq]
    exact ⟨(digitVal_byte d (h d (by simp))).1, ih fun x hx => h x (by simp [hx])⟩

theorem formatInt_pos {v : Int} (h : 1 ≤ v) : formatInt v = (digits v.toNat).map digitByte := by
  have e : v.natAbs = v.toNat := by omega
  simp [formatInt, show ¬ v < 0 by omega, e]

theorem formatInt_isVersion {v : Int} (h : 1 ≤ v) : IsVersion (formatInt v) := by
  rw [formatInt_pos h]
  obtain ⟨d, rest, e, hd⟩ := digits_head_pos (n := v.toNat) (by omega)
  refine ⟨digitByte d, rest.map digitByte, by rw [e]; rfl, ?_, ?_⟩
  · have : d < 10 := digits_mem_lt v.toNat d (by rw [e]; simp)
    rw [ne_eq, digitByte_eq_48 this]; omega
  · intro b hb
    obtain ⟨x, hx, rfl⟩ := List.mem_map.1 hb
    exact digitByte_isDigit (digits_mem_lt _ x hx)

theorem atoi_formatInt {v : Int} (h : 1 ≤ v) (hm : v ≤ 9223372036854775807) :
    atoi (formatInt v) = some v := by
  rw [formatInt_pos h, atoi, map_digitVal_byte _ (digits_mem_lt _), ofDigits_digits]
  rw [if_pos (by omega)]
  congr 1; omega

theorem atoi_isVersion {s : Bytes} (h : IsVersion s) {v : Int} (hv : atoi s = some v) :
    1 ≤ v ∧ v ≤ 9223372036854775807 ∧ formatInt v = s := by
  obtain ⟨d, rest, rfl, hd, hall⟩ := h
  have hd' := digitVal_byte d (hall d (by simp))
  have hpos : 0 < digitVal d := by
    have := hd'.2.2
    by_cases h0 : digitVal d = 0
    · exact absurd (this.1 h0) hd
    · omega
  unfold atoi at hv
  have hp := ofDigits_pos (d := digitVal d) (rest := rest.map digitVal) hpos
  dsimp only [List.map_cons] at hv
  split at hv
  · next hle =>
    have hv : ((ofDigits (digitVal d :: rest.map digitVal) : Nat) : Int) = v := Option.some.inj hv
    have hle : ofDigits (digitVal d :: rest.map digitVal) ≤ 9223372036854775807 := hle
    have hv1 : 1 ≤ v := by omega
    refine ⟨hv1, by omega, ?_⟩
    rw [formatInt_pos hv1]
    have : v.toNat = ofDigits ((d :: rest).map digitVal) := by simp only [List.map_cons]; omega
    rw [this, digits_ofDigits, map_digitByte_val _ hall]
    · intro x hx
      obtain ⟨b, hb, rfl⟩ := List.mem_map.1 hx
      exact (digitVal_byte b (hall b hb)).2.1
    · exact ⟨_, _, rfl, hpos⟩
  · cases hv

theorem formatInt_no_hash {v : Int} (h : 1 ≤ v) : (35 : UInt8) ∉ formatInt v := by
  intro hm
  obtain ⟨d, rest, e, -, hall⟩ := formatInt_isVersion h
  have := hall 35 hm
  revert this; decide

/-! ### Links -/

/-- What the constructor and the parser guarantee. -/
def Valid (l : BOMLink) : Prop :=
  serialNumberMatch l.serialNumber = true ∧ 1 ≤ l.version ∧ l.version ≤ 9223372036854775807

theorem trimURN_append (u : Bytes) : trimURN (utf8 "urn:uuid:" ++ u) = u := by
  simp [trimURN, lit_append]

theorem string_eq (l : BOMLink) : l.string = utf8 "urn:cdx:" ++ trimURN l.serialNumber ++ utf8 "/" ++
    formatInt l.version ++ (if queryEscape l.reference = [] then [] else 35 :: queryEscape l.reference) := by
  unfold BOMLink.string
  by_cases h : l.reference = []
  · simp [h, queryEscape]
  · have : queryEscape l.reference ≠ [] := fun hq => h (queryEscape_eq_nil hq)
    have e : utf8 "#" = [35] := by decide
    rw [if_neg h, if_neg this, e]; simp only [List.append_assoc, List.cons_append, List.nil_append]

theorem findSubmatch_string {l : BOMLink} (hs : serialNumberMatch l.serialNumber = true)
    (hv : 1 ≤ l.version) :
    findSubmatch l.string =
      some ⟨trimURN l.serialNumber, formatInt l.version, queryEscape l.reference⟩ := by
  obtain ⟨u, hu, hs⟩ := (serialNumberMatch_iff _).1 hs
  rw [string_eq, hs, trimURN_append]
  exact findSubmatch_complete hu (formatInt_isVersion hv) (queryEscape_refBytes _)

theorem parse_string {l : BOMLink} (h : Valid l) : parseBOMLink l.string = .ok l := by
  obtain ⟨hs, hv, hm⟩ := h
  unfold parseBOMLink
  rw [findSubmatch_string hs hv]
  simp only [atoi_formatInt hv hm, unescape_escape]
  obtain ⟨u, hu, e⟩ := (serialNumberMatch_iff _).1 hs
  rw [e, trimURN_append, ← e]

theorem parse_valid {s : Bytes} {l : BOMLink} (h : parseBOMLink s = .ok l) : Valid l := by
  unfold parseBOMLink at h
  split at h
  · cases h
  · next m hm =>
    have hm := findSubmatch_sound hm
    split at h
    · cases h
    · next v hv =>
      split at h
      · cases h
      · next r hr =>
        cases h
        have := atoi_isVersion hm.2.1 hv
        exact ⟨(serialNumberMatch_iff _).2 ⟨_, hm.1, rfl⟩, this.1, this.2.1⟩

end Verif.Link
