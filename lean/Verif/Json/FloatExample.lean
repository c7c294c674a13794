import Verif.Json.Codec

/-!
# An instance of `FloatIO`

The laws asked of the printing and parsing of floating-point numbers can be met, so the theorems that are
stated for any such printer are not vacuous.  This instance prints the bit pattern as a decimal number; it
is not what Go prints and is used only in examples.
-/

namespace Verif

/-- Prints a number in decimal. -/
def bitsChars (n : Nat) : List Char := (digits n).map digitChar

theorem bits_round (n : Nat) : ofDigits ((bitsChars n).map charVal) = n := by
  rw [bitsChars, map_charVal_digitChar _ (digits_mem_lt n), ofDigits_digits]

/-- A natural number as a JSON number. -/
def bitsLit (n : Nat) : NumLit := ⟨bitsChars n, digitChars_valid n _ (.inl rfl)⟩

/-- Numbers printed as their bit patterns. -/
@[instance_reducible] def FloatIO.bits : FloatIO where
  fmt32 x := if x.Finite then some (bitsLit x.bits.toNat) else none
  parse32 l := some ⟨BitVec.ofNat _ (ofDigits (l.chars.map charVal))⟩
  fmt64 x := if x.Finite then some (bitsLit x.bits.toNat) else none
  parse64 l := some ⟨BitVec.ofNat _ (ofDigits (l.chars.map charVal))⟩
  parse_fmt32 x lit h := by
    split at h
    · cases h; simp [bitsLit, bits_round]
    · cases h
  parse_fmt64 x lit h := by
    split at h
    · cases h; simp [bitsLit, bits_round]
    · cases h
  fmt32_isSome x := by split <;> simp_all
  fmt64_isSome x := by split <;> simp_all

end Verif
