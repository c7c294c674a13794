import Verif.Model.Utf8
import Verif.Spec.Utf8

/-!
# UTF-8
-/

namespace Verif.Utf8

theorem toNat_ofNat {n : Nat} (h : n < 256) : (UInt8.ofNat n).toNat = n := by
  rw [UInt8.toNat_ofNat']
  exact Nat.mod_eq_of_lt h

theorem char_cases (c : Char) : c.toNat < 0xD800 ∨ (0xDFFF < c.toNat ∧ c.toNat < 0x110000) := by
  exact c.valid

theorem char_ofNat {n : Nat} {c : Char} (h : c.toNat = n) : Char.ofNat n = c := by
  rw [← h]; exact Char.ofNat_toNat c

/-- What is written for a character is its encoding. -/
theorem encodeChar_encodes (c : Char) : Encodes c (encodeChar c) := by
  unfold encodeChar
  have hc := char_cases c
  simp only
  split
  · next h => exact .one (by rw [toNat_ofNat (by omega)]; omega) (by rw [toNat_ofNat (by omega)])
  · split
    · next h1 h2 =>
      refine .two ?_ ?_ ?_
      · rw [toNat_ofNat (by omega)]; omega
      · unfold Tail; rw [toNat_ofNat (by omega)]; omega
      · rw [toNat_ofNat (by omega), toNat_ofNat (by omega)]; omega
    · split
      · next h1 h2 h3 =>
        refine .three ?_ ?_ ?_
        · unfold Tail; rw [toNat_ofNat (by omega), toNat_ofNat (by omega)]; omega
        · unfold Tail; rw [toNat_ofNat (by omega)]; omega
        · rw [toNat_ofNat (by omega), toNat_ofNat (by omega), toNat_ofNat (by omega)]; omega
      · next h1 h2 h3 =>
        refine .four ?_ ?_ ?_ ?_
        · unfold Tail; rw [toNat_ofNat (by omega), toNat_ofNat (by omega)]; omega
        · unfold Tail; rw [toNat_ofNat (by omega)]; omega
        · unfold Tail; rw [toNat_ofNat (by omega)]; omega
        · rw [toNat_ofNat (by omega), toNat_ofNat (by omega), toNat_ofNat (by omega), toNat_ofNat (by omega)]; omega

theorem encode_octets : ∀ t : List Char, Octets t (encode t)
  | [] => .nil
  | c :: t => .cons (encodeChar_encodes c) (encode_octets t)

/-- An encoding is decoded, whatever follows it. -/
theorem decodeRune_encodes {c : Char} {x : List UInt8} (h : Encodes c x) (r : List UInt8) :
    ∃ b bs, x = b :: bs ∧ decodeRune b (bs ++ r) = (some c, r) := by
  cases h with
  | @one a h1 h2 =>
    refine ⟨a, [], rfl, ?_⟩
    have : lead a = some (a.toNat, []) := by unfold lead; simp only; rw [if_pos (by omega)]
    simp [decodeRune, this, follow, char_ofNat h2]
  | @two a b h1 h2 h3 =>
    refine ⟨a, [b], rfl, ?_⟩
    have hl : lead a = some (a.toNat - 0xC0, [(0x80, 0xBF)]) := by
      unfold lead; simp only; rw [if_neg (by omega), if_neg (by omega), if_pos (by omega)]
    unfold Tail at h2
    have : Char.ofNat ((a.toNat - 0xC0) * 64 + (b.toNat - 0x80)) = c := char_ofNat (by omega)
    simp only [decodeRune, hl, follow, List.cons_append, List.nil_append, h2, and_self, if_true, this]
  | @three a b d h1 h2 h3 =>
    refine ⟨a, [b, d], rfl, ?_⟩
    unfold Tail at h1 h2
    have hl : ∃ lo hi, lead a = some (a.toNat - 0xE0, [(lo, hi), (0x80, 0xBF)]) ∧ lo ≤ b.toNat ∧ b.toNat ≤ hi := by
      unfold lead; simp only
      rw [if_neg (by omega), if_neg (by omega), if_neg (by omega)]
      split
      · next h => exact ⟨0xA0, 0xBF, by simp [h], by omega, by omega⟩
      · split
        · next h => exact ⟨0x80, 0x9F, by simp [h], by omega, by omega⟩
        · exact ⟨0x80, 0xBF, by rw [if_pos (by omega)], by omega, by omega⟩
    obtain ⟨lo, hi, hl, hb⟩ := hl
    have : Char.ofNat (((a.toNat - 0xE0) * 64 + (b.toNat - 0x80)) * 64 + (d.toNat - 0x80)) = c := char_ofNat (by omega)
    simp only [decodeRune, hl, follow, List.cons_append, List.nil_append, hb, h2, and_self, if_true, this]
  | @four a b d e h1 h2 h3 h4 =>
    refine ⟨a, [b, d, e], rfl, ?_⟩
    unfold Tail at h1 h2 h3
    have hl : ∃ lo hi, lead a = some (a.toNat - 0xF0, [(lo, hi), (0x80, 0xBF), (0x80, 0xBF)]) ∧ lo ≤ b.toNat ∧
        b.toNat ≤ hi := by
      unfold lead; simp only
      rw [if_neg (by omega), if_neg (by omega), if_neg (by omega), if_neg (by omega), if_neg (by omega),
        if_neg (by omega)]
      split
      · next h => exact ⟨0x90, 0xBF, by simp [h], by omega, by omega⟩
      · split
        · next h => exact ⟨0x80, 0xBF, rfl, by omega, by omega⟩
        · exact ⟨0x80, 0x8F, by rw [if_pos (by omega)]; simp; omega, by omega, by omega⟩
    obtain ⟨lo, hi, hl, hb⟩ := hl
    have : Char.ofNat ((((a.toNat - 0xF0) * 64 + (b.toNat - 0x80)) * 64 + (d.toNat - 0x80)) * 64 + (e.toNat - 0x80)) = c :=
      char_ofNat (by omega)
    simp only [decodeRune, hl, follow, List.cons_append, List.nil_append, hb, h2, h3, and_self, if_true, this]

theorem toNat_ofNat_char {n : Nat} (h : n < 0xD800 ∨ (0xDFFF < n ∧ n < 0x110000)) : (Char.ofNat n).toNat = n := by
  have : n.isValidChar := h
  simp [Char.ofNat, this, Char.toNat, Char.ofNatAux]

/-- Only encodings are decoded. -/
theorem decodeRune_some {b : UInt8} {bs r : List UInt8} {c : Char} (h : decodeRune b bs = (some c, r)) :
    ∃ x, b :: bs = x ++ r ∧ Encodes c x := by
  unfold decodeRune at h
  cases hl : lead b with
  | none => rw [hl] at h; simp at h
  | some p =>
    obtain ⟨acc, rs⟩ := p
    rw [hl] at h
    simp only at h
    cases hf : follow acc rs bs with
    | none => rw [hf] at h; simp at h
    | some q =>
      obtain ⟨n, rest⟩ := q
      rw [hf] at h
      simp only [Prod.mk.injEq, Option.some.injEq] at h
      obtain ⟨rfl, rfl⟩ := h
      have hb := b.toNat_lt
      -- the shapes of the ranges
      have shape : (rs = [] ∧ acc = b.toNat ∧ b.toNat < 0x80) ∨
          (rs = [(0x80, 0xBF)] ∧ acc = b.toNat - 0xC0 ∧ 0xC2 ≤ b.toNat ∧ b.toNat ≤ 0xDF) ∨
          (∃ lo hi, rs = [(lo, hi), (0x80, 0xBF)] ∧ acc = b.toNat - 0xE0 ∧ (b.toNat = 0xE0 ∧ lo = 0xA0 ∧ hi = 0xBF ∨
            b.toNat = 0xED ∧ lo = 0x80 ∧ hi = 0x9F ∨
            0xE1 ≤ b.toNat ∧ b.toNat ≤ 0xEF ∧ b.toNat ≠ 0xED ∧ lo = 0x80 ∧ hi = 0xBF)) ∨
          (∃ lo hi, rs = [(lo, hi), (0x80, 0xBF), (0x80, 0xBF)] ∧ acc = b.toNat - 0xF0 ∧
            (b.toNat = 0xF0 ∧ lo = 0x90 ∧ hi = 0xBF ∨ b.toNat = 0xF4 ∧ lo = 0x80 ∧ hi = 0x8F ∨
            0xF1 ≤ b.toNat ∧ b.toNat ≤ 0xF3 ∧ lo = 0x80 ∧ hi = 0xBF)) := by
        unfold lead at hl
        simp only at hl
        repeat' split at hl
        all_goals first
          | (simp only [reduceCtorEq] at hl)
          | (simp only [Option.some.injEq, Prod.mk.injEq] at hl
             obtain ⟨h1, h2⟩ := hl
             first
               | exact .inl ⟨h2.symm, by omega, by omega⟩
               | exact .inr (.inl ⟨h2.symm, by omega, by omega, by omega⟩)
               | exact .inr (.inr (.inl ⟨_, _, h2.symm, by omega, by omega⟩))
               | exact .inr (.inr (.inr ⟨_, _, h2.symm, by omega, by omega⟩)))
      rcases shape with ⟨hr, ha, h1⟩ | ⟨hr, ha, h1⟩ | ⟨lo, hi, hr, ha, h1⟩ | ⟨lo, hi, hr, ha, h1⟩ <;> rw [hr, ha] at hf
      · simp only [follow, Option.some.injEq, Prod.mk.injEq] at hf
        obtain ⟨rfl, rfl⟩ := hf
        exact ⟨[b], rfl, .one (by omega) (toNat_ofNat_char (by omega))⟩
      · cases bs with
        | nil => cases hf
        | cons b₁ bs =>
          simp only [follow] at hf
          split at hf
          · next h2 =>
            simp only [Option.some.injEq, Prod.mk.injEq] at hf
            obtain ⟨rfl, rfl⟩ := hf
            exact ⟨[b, b₁], rfl, .two (by omega) h2 (by rw [toNat_ofNat_char (by omega)])⟩
          · cases hf
      · cases bs with
        | nil => cases hf
        | cons b₁ bs =>
          simp only [follow] at hf
          split at hf
          · next h2 =>
            cases bs with
            | nil => cases hf
            | cons b₂ bs =>
              simp only [follow] at hf
              split at hf
              · next h3 =>
                simp only [Option.some.injEq, Prod.mk.injEq] at hf
                obtain ⟨rfl, rfl⟩ := hf
                exact ⟨[b, b₁, b₂], rfl, .three (by unfold Tail; omega) h3
                  (by rw [toNat_ofNat_char (by omega)]; omega)⟩
              · cases hf
          · cases hf
      · cases bs with
        | nil => cases hf
        | cons b₁ bs =>
          simp only [follow] at hf
          split at hf
          · next h2 =>
            cases bs with
            | nil => cases hf
            | cons b₂ bs =>
              simp only [follow] at hf
              split at hf
              · next h3 =>
                cases bs with
                | nil => cases hf
                | cons b₃ bs =>
                  simp only [follow] at hf
                  split at hf
                  · next h4 =>
                    simp only [Option.some.injEq, Prod.mk.injEq] at hf
                    obtain ⟨rfl, rfl⟩ := hf
                    exact ⟨[b, b₁, b₂, b₃], rfl, .four (by unfold Tail; omega) h3 h4
                      (by rw [toNat_ofNat_char (by omega)]; omega)⟩
                  · cases hf
              · cases hf
          · cases hf

theorem runes_nil : runes [] = [] := by rw [runes]

theorem runes_cons (b : UInt8) (bs : List UInt8) :
    runes (b :: bs) = (decodeRune b bs).1 :: runes (decodeRune b bs).2 := by rw [runes]

/-- An encoded text is taken apart into its characters, whatever follows it. -/
theorem runes_octets {t : List Char} {bs : List UInt8} (h : Octets t bs) (r : List UInt8) :
    runes (bs ++ r) = t.map some ++ runes r := by
  induction h with
  | nil => rfl
  | @cons c t x bs hx _ ih =>
    obtain ⟨b, y, rfl, hd⟩ := decodeRune_encodes hx (bs ++ r)
    rw [List.append_assoc, List.cons_append, runes_cons, hd, ih]
    rfl

/-- Only texts that are encoded are taken apart without errors. -/
theorem octets_of_runes : ∀ {t : List Char} {bs : List UInt8}, runes bs = t.map some → Octets t bs
  | [], [], _ => .nil
  | [], b :: bs, h => by rw [runes_cons] at h; cases h
  | c :: t, [], h => by rw [runes_nil] at h; cases h
  | c :: t, b :: bs, h => by
    rw [runes_cons, List.map_cons, List.cons.injEq] at h
    obtain ⟨x, hx, he⟩ := decodeRune_some (r := (decodeRune b bs).2) (c := c) (Prod.ext h.1 rfl)
    rw [hx]
    exact .cons he (octets_of_runes h.2)

theorem runes_iff {t : List Char} {bs : List UInt8} : runes bs = t.map some ↔ Octets t bs :=
  ⟨octets_of_runes, fun h => by simpa [runes_nil] using runes_octets h []⟩

theorem octets_unique {t t' : List Char} {bs : List UInt8} (h : Octets t bs) (h' : Octets t' bs) : t = t' := by
  have := runes_iff.2 h
  rw [runes_iff.2 h'] at this
  have := congrArg (List.map (·.getD 'a')) this
  simpa [List.map_map, Function.comp_def] using this.symm

theorem chars_octets (d : Char) {t : List Char} {bs : List UInt8} (h : Octets t bs) :
    (runes bs).map (·.getD d) = t := by
  rw [runes_iff.2 h, List.map_map]
  exact List.map_id t

/-- A character has one encoding. -/
theorem encodes_eq {c : Char} {x : List UInt8} (h : Encodes c x) : x = encodeChar c := by
  have e : ∀ (a : UInt8) (n : Nat), a.toNat = n → a = .ofNat n := by
    rintro a n rfl
    exact (UInt8.ofNat_toNat).symm
  unfold encodeChar
  simp only
  cases h with
  | @one a h1 h2 => rw [if_pos (by omega)]; rw [← e _ _ h2.symm]
  | @two a b h1 h2 h3 =>
    unfold Tail at h2
    rw [if_neg (by omega), if_pos (by omega), ← e a (0xC0 + c.toNat / 64) (by omega),
      ← e b (0x80 + c.toNat % 64) (by omega)]
  | @three a b d h1 h2 h3 =>
    unfold Tail at h1 h2
    rw [if_neg (by omega), if_neg (by omega), if_pos (by omega), ← e a (0xE0 + c.toNat / 4096) (by omega),
      ← e b (0x80 + c.toNat / 64 % 64) (by omega), ← e d (0x80 + c.toNat % 64) (by omega)]
  | @four a b d f h1 h2 h3 h4 =>
    unfold Tail at h1 h2 h3
    rw [if_neg (by omega), if_neg (by omega), if_neg (by omega), ← e a (0xF0 + c.toNat / 262144) (by omega),
      ← e b (0x80 + c.toNat / 4096 % 64) (by omega), ← e d (0x80 + c.toNat / 64 % 64) (by omega),
      ← e f (0x80 + c.toNat % 64) (by omega)]

/-- What is written for a text is its encoding, the only one. -/
theorem octets_iff {t : List Char} {bs : List UInt8} : Octets t bs ↔ bs = encode t := by
  constructor
  · intro h
    induction h with
    | nil => rfl
    | cons hx _ ih => rw [encodes_eq hx, ih]; rfl
  · rintro rfl
    exact encode_octets t

/-! ## After an ASCII character, decoding begins anew -/

theorem follow_stop {x : UInt8} (hx : x.toNat < 0x80) : ∀ (rs : List (Nat × Nat)) (acc : Nat) (l : List UInt8),
    (∀ p ∈ rs, 0x80 ≤ p.1) → (∀ r, follow acc rs (l ++ x :: r) = none) ∨
      ∃ n l', (∃ k, l = k ++ l') ∧ ∀ r, follow acc rs (l ++ x :: r) = some (n, l' ++ x :: r)
  | [], acc, l, _ => .inr ⟨acc, l, ⟨[], rfl⟩, fun _ => rfl⟩
  | (lo, hi) :: rs, acc, [], h => .inl fun r => by
    have := h (lo, hi) List.mem_cons_self
    simp only at this
    simp only [List.nil_append, follow]
    rw [if_neg (by omega)]
  | (lo, hi) :: rs, acc, b :: l, h => by
    simp only [List.cons_append, follow]
    split
    · rcases follow_stop hx rs (acc * 64 + (b.toNat - 0x80)) l fun p hp => h p (List.mem_cons_of_mem _ hp) with
        h' | ⟨n, l', ⟨k, hk⟩, h'⟩
      · exact .inl h'
      · exact .inr ⟨n, l', ⟨b :: k, by rw [hk]; rfl⟩, h'⟩
    · exact .inl fun _ => rfl

theorem lead_ranges {b : UInt8} {acc : Nat} {rs : List (Nat × Nat)} (h : lead b = some (acc, rs)) :
    ∀ p ∈ rs, 0x80 ≤ p.1 := by
  unfold lead at h
  simp only at h
  repeat' split at h
  all_goals first
    | (simp only [reduceCtorEq] at h)
    | (simp only [Option.some.injEq, Prod.mk.injEq] at h
       obtain ⟨-, h⟩ := h
       rw [← h]
       intro p hp
       repeat' (first | (rcases List.mem_cons.1 hp with rfl | hp) | exact absurd hp List.not_mem_nil)
       all_goals (simp only; omega))

theorem decodeRune_stop {x : UInt8} (hx : x.toNat < 0x80) (b : UInt8) (l : List UInt8) :
    ∃ y l', (∃ k, l = k ++ l') ∧ ∀ r, decodeRune b (l ++ x :: r) = (y, l' ++ x :: r) := by
  unfold decodeRune
  cases hl : lead b with
  | none => exact ⟨none, l, ⟨[], rfl⟩, fun _ => rfl⟩
  | some p =>
    obtain ⟨acc, rs⟩ := p
    rcases follow_stop hx rs acc l (lead_ranges hl) with h | ⟨n, l', hk, h⟩
    · exact ⟨none, l, ⟨[], rfl⟩, fun r => by simp only [h r]⟩
    · exact ⟨some (Char.ofNat n), l', hk, fun r => by simp only [h r]⟩

theorem decodeRune_ascii {x : UInt8} (hx : x.toNat < 0x80) (r : List UInt8) :
    decodeRune x r = (some (Char.ofNat x.toNat), r) := by
  have : lead x = some (x.toNat, []) := by unfold lead; simp only; rw [if_pos hx]
  simp [decodeRune, this, follow]

/-- What precedes an ASCII byte and what follows it are taken apart by themselves. -/
theorem runes_stop {x : UInt8} (hx : x.toNat < 0x80) : ∀ (l : List UInt8), ∃ s, ∀ r,
    runes (l ++ x :: r) = s ++ some (Char.ofNat x.toNat) :: runes r
  | [] => ⟨[], fun r => by rw [List.nil_append, runes_cons, decodeRune_ascii hx]; rfl⟩
  | b :: l => by
    obtain ⟨y, l', ⟨k, hk⟩, h⟩ := decodeRune_stop hx b l
    obtain ⟨s, hs⟩ := runes_stop hx l'
    refine ⟨y :: s, fun r => ?_⟩
    rw [List.cons_append, runes_cons, h r, hs r]
    rfl
termination_by l => l.length
decreasing_by rw [hk]; simp; omega

/-- A byte for an ASCII character among the characters is a byte of the text. -/
theorem runes_split {c : Char} (hc : c.toNat < 0x80) : ∀ {s r : List (Option Char)} {bs : List UInt8},
    runes bs = s ++ some c :: r → ∃ (l q : List UInt8) (x : UInt8), bs = l ++ x :: q ∧ x.toNat = c.toNat ∧ runes q = r ∧
      ∀ q', runes (l ++ x :: q') = s ++ some c :: runes q'
  | s, r, [], h => by rw [runes_nil] at h; cases s <;> cases h
  | [], r, b :: bs, h => by
    rw [runes_cons, List.nil_append, List.cons.injEq] at h
    obtain ⟨x, hx, he⟩ := decodeRune_some (r := (decodeRune b bs).2) (c := c) (Prod.ext h.1 rfl)
    cases he with
    | @one a h1 h2 =>
      simp only [List.cons_append, List.nil_append, List.cons.injEq] at hx
      obtain ⟨rfl, hx⟩ := hx
      refine ⟨[], bs, b, rfl, h2.symm, by rw [hx]; exact h.2, fun q' => ?_⟩
      rw [List.nil_append, runes_cons, decodeRune_ascii (by omega), char_ofNat h2]
      rfl
    | two h1 h2 h3 => omega
    | three h1 h2 h3 => unfold Tail at h1; omega
    | four h1 h2 h3 h4 => unfold Tail at h1; omega
  | y :: s, r, b :: bs, h => by
    rw [runes_cons, List.cons_append, List.cons.injEq] at h
    obtain ⟨l, q, x, hl, hx, hq, hr⟩ := runes_split hc h.2
    -- the bytes of the first character
    have hsuf : ∃ k, bs = k ++ (decodeRune b bs).2 := by
      have follow_suffix : ∀ {rs : List (Nat × Nat)} {acc n : Nat} {bs rest : List UInt8},
          follow acc rs bs = some (n, rest) → ∃ k, bs = k ++ rest := by
        intro rs
        induction rs with
        | nil =>
          intro acc n bs rest h
          simp only [follow, Option.some.injEq, Prod.mk.injEq] at h
          exact ⟨[], h.2⟩
        | cons p rs ih =>
          intro acc n bs rest h
          obtain ⟨lo, hi⟩ := p
          cases bs with
          | nil => cases h
          | cons b bs =>
            simp only [follow] at h
            split at h
            · obtain ⟨k, hk⟩ := ih h
              exact ⟨b :: k, by rw [hk]; rfl⟩
            · cases h
      unfold decodeRune
      split
      · exact ⟨[], rfl⟩
      · split
        · exact ⟨[], rfl⟩
        · next hf => exact follow_suffix hf
    obtain ⟨k, hk⟩ := hsuf
    rw [hl] at hk
    refine ⟨b :: (k ++ l), q, x, by rw [hk]; simp, hx, hq, fun q' => ?_⟩
    obtain ⟨y', l', ⟨k', hk'⟩, hd⟩ := decodeRune_stop (x := x) (by omega) b (k ++ l)
    have h0 := hd q
    rw [List.append_assoc, ← hk] at h0
    have hl' : l' = l := by
      have := congrArg Prod.snd h0
      rw [hl] at this
      exact (List.append_cancel_right this).symm
    subst hl'
    have hy : y' = y := by rw [← h.1, h0]
    subst hy
    rw [List.cons_append, runes_cons, hd q', hr q']
    rfl
termination_by _ _ bs => bs.length
decreasing_by exact Nat.lt_succ_of_le (decodeRune_length b bs)

end Verif.Utf8
