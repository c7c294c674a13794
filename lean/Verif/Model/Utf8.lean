/-!
# UTF-8

The texts of documents are sequences of characters in the model.  What is written and read are bytes: this file has
the encoding (`utf8.EncodeRune` of the Go standard library, which `encoding/json` and `encoding/xml` use on strings that
are valid UTF-8 already) and the decoding (`utf8.DecodeRune`, by which both of them take texts apart).
-/

namespace Verif.Utf8

/-- The bytes of a character: `utf8.EncodeRune`. -/
def encodeChar (c : Char) : List UInt8 :=
  let n := c.toNat
  if n < 0x80 then [.ofNat n]
  else if n < 0x800 then [.ofNat (0xC0 + n / 64), .ofNat (0x80 + n % 64)]
  else if n < 0x10000 then [.ofNat (0xE0 + n / 4096), .ofNat (0x80 + n / 64 % 64), .ofNat (0x80 + n % 64)]
  else [.ofNat (0xF0 + n / 262144), .ofNat (0x80 + n / 4096 % 64), .ofNat (0x80 + n / 64 % 64), .ofNat (0x80 + n % 64)]

/-- The bytes of a text. -/
def encode (t : List Char) : List UInt8 := t.flatMap encodeChar

/-- A first byte: what it contributes to the character, and the ranges of the bytes that have to follow it; the tables
`first` and `acceptRanges` of `unicode/utf8`. -/
def lead (b : UInt8) : Option (Nat × List (Nat × Nat)) :=
  let n := b.toNat
  if n < 0x80 then some (n, [])
  else if n < 0xC2 then none
  else if n < 0xE0 then some (n - 0xC0, [(0x80, 0xBF)])
  else if n = 0xE0 then some (0, [(0xA0, 0xBF), (0x80, 0xBF)])
  else if n = 0xED then some (13, [(0x80, 0x9F), (0x80, 0xBF)])
  else if n < 0xF0 then some (n - 0xE0, [(0x80, 0xBF), (0x80, 0xBF)])
  else if n = 0xF0 then some (0, [(0x90, 0xBF), (0x80, 0xBF), (0x80, 0xBF)])
  else if n < 0xF4 then some (n - 0xF0, [(0x80, 0xBF), (0x80, 0xBF), (0x80, 0xBF)])
  else if n = 0xF4 then some (4, [(0x80, 0x8F), (0x80, 0xBF), (0x80, 0xBF)])
  else none

/-- The bytes that have to follow: the number of the character, and the rest. -/
def follow : Nat → List (Nat × Nat) → List UInt8 → Option (Nat × List UInt8)
  | acc, [], bs => some (acc, bs)
  | _, _ :: _, [] => none
  | acc, (lo, hi) :: rs, b :: bs =>
    if lo ≤ b.toNat ∧ b.toNat ≤ hi then follow (acc * 64 + (b.toNat - 0x80)) rs bs else none

/-- `utf8.DecodeRune` at a byte: the character and what follows it; or `none`, for a byte that no character begins with
(`RuneError` of width one), and what follows that byte. -/
def decodeRune (b : UInt8) (bs : List UInt8) : Option Char × List UInt8 :=
  match lead b with
  | none => (none, bs)
  | some (acc, rs) =>
    match follow acc rs bs with
    | none => (none, bs)
    | some (n, rest) => (some (Char.ofNat n), rest)

theorem follow_length : ∀ {rs : List (Nat × Nat)} {acc n : Nat} {bs rest : List UInt8},
    follow acc rs bs = some (n, rest) → rest.length ≤ bs.length
  | [], _, _, _, _, h => by
    simp only [follow, Option.some.injEq, Prod.mk.injEq] at h
    rw [h.2]; exact Nat.le_refl _
  | _ :: _, _, _, [], _, h => by cases h
  | (lo, hi) :: rs, acc, n, b :: bs, rest, h => by
    unfold follow at h
    split at h
    · exact Nat.le_succ_of_le (follow_length h)
    · cases h

theorem decodeRune_length (b : UInt8) (bs : List UInt8) : (decodeRune b bs).2.length ≤ bs.length := by
  unfold decodeRune
  split
  · exact Nat.le_refl _
  · split
    · exact Nat.le_refl _
    · next h => exact follow_length h

/-- A text taken apart: its characters, and `none` for each byte that is not part of one. -/
def runes : List UInt8 → List (Option Char)
  | [] => []
  | b :: bs => (decodeRune b bs).1 :: runes (decodeRune b bs).2
termination_by bs => bs.length
decreasing_by exact Nat.lt_succ_of_le (decodeRune_length b bs)

/-- The characters that `encoding/json` sees: a byte that is not part of a character is U+FFFD in a string
(`unquoteBytes` of `decode.go`), and an error elsewhere, as that character is. -/
def jsonChars (bs : List UInt8) : List Char := (runes bs).map (·.getD (Char.ofNat 0xFFFD))

/-- The characters that `encoding/xml` sees: a byte that is not part of a character is an error in a text, in the value
of an attribute and in a name, and is ignored in comments, processing instructions and directives (`Decoder.text`,
`isName`, `Decoder.rawToken` of `xml.go`).  The same holds of U+FFFE, which XML does not allow; so it stands for such a
byte. -/
def xmlChars (bs : List UInt8) : List Char := (runes bs).map (·.getD (Char.ofNat 0xFFFE))

end Verif.Utf8
