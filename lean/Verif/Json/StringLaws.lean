import Verif.Spec.JsonText
import Verif.Json.Text

/-!
# Reading strings is what RFC 8259 says
-/

namespace Verif.JText
open JsonText

theorem hexVal_of_hex {c : Char} {n : Nat} (h : Hex c n) : hexVal c = some n := by
  cases h with
  | dig n hn =>
    have : ∀ n : Fin 10, hexVal (Char.ofNat ('0'.toNat + n)) = some n.val := by decide
    exact this ⟨n, hn⟩
  | lower n hn =>
    have : ∀ n : Fin 6, hexVal (Char.ofNat ('a'.toNat + n)) = some (10 + n.val) := by decide
    exact this ⟨n, hn⟩
  | upper n hn =>
    have : ∀ n : Fin 6, hexVal (Char.ofNat ('A'.toNat + n)) = some (10 + n.val) := by decide
    exact this ⟨n, hn⟩

theorem char_le {a b : Char} : a ≤ b ↔ a.toNat ≤ b.toNat := by
  rw [Char.le_def, UInt32.le_iff_toNat_le]; rfl

theorem ofNat_toNat' {c : Char} {n : Nat} (h : n = c.toNat) : Char.ofNat n = c := by
  subst h; exact Char.ofNat_toNat c

theorem hex_of_hexVal {c : Char} {n : Nat} (h : hexVal c = some n) : Hex c n := by
  simp only [hexVal, char_le] at h
  have e0 : '0'.toNat = 48 := rfl
  have e9 : '9'.toNat = 57 := rfl
  have ea : 'a'.toNat = 97 := rfl
  have ef : 'f'.toNat = 102 := rfl
  have eA : 'A'.toNat = 65 := rfl
  have eF : 'F'.toNat = 70 := rfl
  rw [e0, e9, ea, ef, eA, eF] at h
  split at h
  · cases h
    have := Hex.dig (c.toNat - 48) (by omega)
    rwa [ofNat_toNat' (c := c) (by omega)] at this
  · split at h
    · cases h
      have := Hex.lower (c.toNat - 97) (by omega)
      rw [ofNat_toNat' (c := c) (by omega)] at this
      have e : 10 + (c.toNat - 97) = c.toNat - 87 := by omega
      rwa [e] at this
    · split at h
      · cases h
        have := Hex.upper (c.toNat - 65) (by omega)
        rw [ofNat_toNat' (c := c) (by omega)] at this
        have e : 10 + (c.toNat - 65) = c.toNat - 55 := by omega
        rwa [e] at this
      · cases h

theorem hex4_iff {a b c d : Char} {n : Nat} : hex4 a b c d = some n ↔ U4 ['\\', 'u', a, b, c, d] n := by
  constructor
  · intro h
    unfold hex4 at h
    split at h
    · next h1 h2 h3 h4 =>
      cases h
      exact .mk (hex_of_hexVal h1) (hex_of_hexVal h2) (hex_of_hexVal h3) (hex_of_hexVal h4)
    · cases h
  · rintro ⟨h1, h2, h3, h4⟩
    simp [hex4, hexVal_of_hex h1, hexVal_of_hex h2, hexVal_of_hex h3, hexVal_of_hex h4]

/-- The shape of a `\u` escape. -/
theorem u4_shape {x : List Char} {n : Nat} (h : U4 x n) :
    ∃ a b c d, x = ['\\', 'u', a, b, c, d] ∧ hex4 a b c d = some n := by
  cases h with
  | mk h1 h2 h3 h4 => exact ⟨_, _, _, _, rfl, hex4_iff.2 (.mk h1 h2 h3 h4)⟩

theorem isHigh_iff {n : Nat} : isHigh n = true ↔ High n := by simp [isHigh, High]
theorem isLow_iff {n : Nat} : isLow n = true ↔ Low n := by simp [isLow, Low]

theorem peekU4_append {y t : List Char} {n : Nat} (h : U4 y n) : peekU4 (y ++ t) = some n := by
  obtain ⟨a, b, c, d, rfl, e⟩ := u4_shape h
  exact e

theorem hexVal_quote : hexVal '"' = none := by decide

/-- A `\u` escape before the closing quotation mark does not contain the quotation mark. -/
theorem peekU4_some {t r : List Char} {n : Nat} (h : peekU4 (t ++ '"' :: r) = some n) :
    ∃ y t', t = y ++ t' ∧ U4 y n := by
  unfold peekU4 at h
  split at h
  · next a b c d z e =>
    have hq : ∀ x ∈ [a, b, c, d], x ≠ '"' := by
      rintro x hx rfl
      unfold hex4 at h
      simp only [List.mem_cons, List.not_mem_nil, or_false] at hx
      rcases hx with rfl | rfl | rfl | rfl <;> simp [hexVal_quote] at h
    match t, e with
    | [], e => simp at e
    | [_], e => simp at e
    | [_, _], e => simp at e; exact absurd e.2.2.1.symm (hq a (by simp))
    | [_, _, _], e => simp at e; exact absurd e.2.2.2.1.symm (hq b (by simp))
    | [_, _, _, _], e => simp at e; exact absurd e.2.2.2.2.1.symm (hq c (by simp))
    | [_, _, _, _, _], e => simp at e; exact absurd e.2.2.2.2.2.1.symm (hq d (by simp))
    | c1 :: c2 :: c3 :: c4 :: c5 :: c6 :: t', e =>
      simp only [List.cons_append, List.cons.injEq] at e
      obtain ⟨rfl, rfl, rfl, rfl, rfl, rfl, -⟩ := e
      exact ⟨['\\', 'u', c3, c4, c5, c6], t', rfl, hex4_iff.1 h⟩
  · cases h

theorem shortEscape_iff {e c : Char} : shortEscape e = some c ↔ (e, c) ∈ shortEscapes := by
  simp only [shortEscapes, List.mem_cons, Prod.mk.injEq, List.not_mem_nil, or_false]
  constructor
  · intro h
    unfold shortEscape at h
    repeat' split at h
    all_goals first | (cases h; simp_all; done) | cases h
  · rintro (⟨rfl, rfl⟩ | ⟨rfl, rfl⟩ | ⟨rfl, rfl⟩ | ⟨rfl, rfl⟩ | ⟨rfl, rfl⟩ | ⟨rfl, rfl⟩ | ⟨rfl, rfl⟩ | ⟨rfl, rfl⟩) <;>
      decide

theorem shortEscape_u : shortEscape 'u' = none := by decide

/-- Every string of the grammar is read, and denotes what the grammar says. -/
theorem pStr_complete {s t : List Char} (h : StrBody s t) : ∀ (f : Nat) (rest : List Char), t.length < f →
    pStr f (t ++ '"' :: rest) = some (s, rest) := by
  induction h with
  | nil =>
    intro f rest hf
    obtain ⟨f, rfl⟩ : ∃ g, f = g + 1 := ⟨f - 1, by simp at hf; omega⟩
    simp [pStr]
  | @raw c s t h1 h2 h3 _ ih =>
    intro f rest hf
    simp only [List.length_cons] at hf
    obtain ⟨f, rfl⟩ : ∃ g, f = g + 1 := ⟨f - 1, by omega⟩
    simp [pStr, h2, h3, show ¬ c.toNat < 0x20 by omega, ih f rest (by omega)]
  | @short e c s t h1 _ ih =>
    intro f rest hf
    simp only [List.length_cons] at hf
    obtain ⟨f, rfl⟩ : ∃ g, f = g + 1 := ⟨f - 1, by omega⟩
    have hs := shortEscape_iff.2 h1
    have hu : e ≠ 'u' := by rintro rfl; rw [shortEscape_u] at hs; cases hs
    simp [pStr, hu, hs, ih f rest (by omega)]
  | @u4 n x s t hx h1 h2 _ ih =>
    intro f rest hf
    obtain ⟨a, b, c, d, rfl, e⟩ := u4_shape hx
    simp only [List.length_append, List.length_cons, List.length_nil] at hf
    obtain ⟨f, rfl⟩ : ∃ g, f = g + 1 := ⟨f - 1, by omega⟩
    have i1 : isHigh n = false := by rw [← Bool.not_eq_true, isHigh_iff]; exact h1
    have i2 : isLow n = false := by rw [← Bool.not_eq_true, isLow_iff]; exact h2
    simp [pStr, e, i1, i2, ih f rest (by omega)]
  | @pair m n x y s t hx hm hy hn _ ih =>
    intro f rest hf
    obtain ⟨a, b, c, d, rfl, e⟩ := u4_shape hx
    have hp := peekU4_append (t := t ++ '"' :: rest) hy
    obtain ⟨a', b', c', d', rfl, e'⟩ := u4_shape hy
    simp only [List.length_append, List.length_cons, List.length_nil] at hf
    obtain ⟨f, rfl⟩ : ∃ g, f = g + 1 := ⟨f - 1, by omega⟩
    simp only [List.cons_append, List.nil_append] at hp
    simp [pStr, e, isHigh_iff.2 hm, isLow_iff.2 hn, hp, ih f rest (by omega)]
  | @lone n x s t hx h1 h2 _ ih =>
    intro f rest hf
    obtain ⟨a, b, c, d, rfl, e⟩ := u4_shape hx
    simp only [List.length_append, List.length_cons, List.length_nil] at hf
    obtain ⟨f, rfl⟩ : ∃ g, f = g + 1 := ⟨f - 1, by omega⟩
    have i1 : (isHigh n || isLow n) = true := by rw [Bool.or_eq_true, isHigh_iff, isLow_iff]; exact h1
    have ih := ih f rest (by omega)
    simp only [pStr, List.cons_append, List.nil_append, show ('\\' : Char) ≠ '"' by decide, if_false, if_true, e, i1]
    cases hp : peekU4 (t ++ '"' :: rest) with
    | none => simp [ih]
    | some m =>
      obtain ⟨y, t', rfl, hy⟩ := peekU4_some hp
      have : (isHigh n && isLow m) = false := by
        rw [← Bool.not_eq_true, Bool.and_eq_true, isHigh_iff, isLow_iff]
        rintro ⟨hh, hl⟩
        exact h2 hh y m t' rfl hy hl
      simp only [this, Bool.false_eq_true, if_false, ih, Option.map_some]

/-- Only strings of the grammar are read. -/
theorem pStr_sound : ∀ (f : Nat) (cs s r : List Char), pStr f cs = some (s, r) →
    ∃ t, cs = t ++ '"' :: r ∧ StrBody s t
  | 0, cs, s, r, h => by simp [pStr] at h
  | f + 1, [], s, r, h => by simp [pStr] at h
  | f + 1, c :: cs, s, r, h => by
    unfold pStr at h
    split at h
    · next hc => cases h; exact ⟨[], by rw [hc]; rfl, .nil⟩
    split at h
    · next hc hb =>
      subst hb
      split at h
      · cases h
      next e cs =>
      split at h
      · next he =>
        subst he
        split at h
        · next a b c d cs =>
          split at h
          · cases h
          next m hm =>
          have hx := hex4_iff.1 hm
          split at h
          · next hs =>
            rw [Bool.or_eq_true, isHigh_iff, isLow_iff] at hs
            split at h
            · next n hp =>
              split at h
              · next hhl =>
                rw [Bool.and_eq_true, isHigh_iff, isLow_iff] at hhl
                rw [Option.map_eq_some_iff] at h
                obtain ⟨⟨s', r'⟩, hq, h⟩ := h
                cases h
                obtain ⟨t, ht, hbody⟩ := pStr_sound f _ _ _ hq
                unfold peekU4 at hp
                split at hp
                · next a' b' c' d' z =>
                  simp only [List.drop_succ_cons, List.drop_zero] at ht
                  subst ht
                  exact ⟨_, by simp, .pair hx hhl.1 (hex4_iff.1 hp) hhl.2 hbody⟩
                · cases hp
              · next hhl =>
                rw [Option.map_eq_some_iff] at h
                obtain ⟨⟨s', r'⟩, hq, h⟩ := h
                cases h
                obtain ⟨t, rfl, hbody⟩ := pStr_sound f _ _ _ hq
                refine ⟨_, by simp, .lone hx hs ?_ hbody⟩
                rintro hh y k t' rfl hy hl
                rw [List.append_assoc, peekU4_append hy] at hp
                cases hp
                exact hhl (by rw [Bool.and_eq_true, isHigh_iff, isLow_iff]; exact ⟨hh, hl⟩)
            · next hp =>
              rw [Option.map_eq_some_iff] at h
              obtain ⟨⟨s', r'⟩, hq, h⟩ := h
              cases h
              obtain ⟨t, rfl, hbody⟩ := pStr_sound f _ _ _ hq
              refine ⟨_, by simp, .lone hx hs ?_ hbody⟩
              rintro hh y k t' rfl hy hl
              rw [List.append_assoc, peekU4_append hy] at hp
              cases hp
          · next hs =>
            rw [Bool.or_eq_true, isHigh_iff, isLow_iff, not_or] at hs
            rw [Option.map_eq_some_iff] at h
            obtain ⟨⟨s', r'⟩, hq, h⟩ := h
            cases h
            obtain ⟨t, rfl, hbody⟩ := pStr_sound f _ _ _ hq
            exact ⟨_, by simp, .u4 hx hs.1 hs.2 hbody⟩
        · cases h
      · split at h
        · next x hx =>
          rw [Option.map_eq_some_iff] at h
          obtain ⟨⟨s', r'⟩, hq, h⟩ := h
          cases h
          obtain ⟨t, rfl, hbody⟩ := pStr_sound f _ _ _ hq
          exact ⟨_, by simp, .short (shortEscape_iff.1 hx) hbody⟩
        · cases h
    · next hc hb =>
      split at h
      · cases h
      · next hlt =>
        rw [Option.map_eq_some_iff] at h
        obtain ⟨⟨s', r'⟩, hq, h⟩ := h
        cases h
        obtain ⟨t, rfl, hbody⟩ := pStr_sound f _ _ _ hq
        exact ⟨_, by simp, .raw (by omega) hc hb hbody⟩

theorem pString_complete {s : String} {t : List Char} (h : Str s t) (rest : List Char) :
    ∃ t', t = '"' :: t' ∧ pString (t' ++ rest) = some (s, rest) := by
  cases h with
  | @mk s t hb =>
    refine ⟨_, rfl, ?_⟩
    unfold pString
    rw [List.append_assoc]
    simp only [List.cons_append, List.nil_append]
    rw [pStr_complete hb _ rest (by simp; omega)]
    rfl

theorem pString_sound {cs : List Char} {s : String} {r : List Char} (h : pString cs = some (s, r)) :
    ∃ t, '"' :: cs = t ++ r ∧ Str s t := by
  unfold pString at h
  rw [Option.map_eq_some_iff] at h
  obtain ⟨⟨s', r'⟩, hq, h⟩ := h
  cases h
  obtain ⟨t, rfl, hb⟩ := pStr_sound _ _ _ _ hq
  exact ⟨_, by simp, .mk hb⟩

end Verif.JText
