import Verif.Xml.Codec
import Verif.Json.FloatExample

/-!
# An instance of `XFloatIO`

The laws asked of the printing and parsing of floating-point numbers in XML can be met, so the theorems that are
stated for any such printer are not vacuous.  This instance prints the bit pattern as a decimal number, and a NaN as
`NaN`; it is not what Go prints and is used only in examples.
-/

namespace Verif

theorem bitsChars_ne (n : Nat) : String.ofList (bitsChars n) ≠ "" := by
  intro e
  have := congrArg String.toList e
  simp [bitsChars] at this
  exact digits_ne_nil n this

theorem bitsChars_chars (n : Nat) : ∀ c ∈ (String.ofList (bitsChars n)).toList, isFloatChar c = true := by
  intro c hc
  simp only [String.toList_ofList, bitsChars, List.mem_map] at hc
  obtain ⟨d, hd, rfl⟩ := hc
  simp [isFloatChar, (digitChar_val (digits_mem_lt _ d hd)).2.1]

theorem bitsChars_ne_NaN (n : Nat) : String.ofList (bitsChars n) ≠ "NaN" := by
  intro e
  have h := congrArg String.toList e
  simp only [String.toList_ofList, bitsChars] at h
  have hN : 'N' ∈ (digits n).map digitChar := by rw [h]; decide
  obtain ⟨d, hd, e⟩ := List.mem_map.1 hN
  have := (digitChar_val (digits_mem_lt _ d hd)).2.1
  rw [e] at this
  revert this; decide

/-- Numbers printed as their bit patterns. -/
@[instance_reducible] def XFloatIO.bits : XFloatIO where
  fmt32 x := if x.isNaN then "NaN" else String.ofList (bitsChars x.bits.toNat)
  parse32 s := if s = "NaN" then some F32.nan else some ⟨BitVec.ofNat _ (ofDigits (s.toList.map charVal))⟩
  fmt64 x := if x.isNaN then "NaN" else String.ofList (bitsChars x.bits.toNat)
  parse64 s := if s = "NaN" then some F64.nan else some ⟨BitVec.ofNat _ (ofDigits (s.toList.map charVal))⟩
  parse_fmt32 x := by
    by_cases h : x.isNaN = true
    · simp [h, F32.canonNaN]
    · simp [h, F32.canonNaN, bitsChars_ne_NaN, bits_round]
  parse_fmt64 x := by
    by_cases h : x.isNaN = true
    · simp [h, F64.canonNaN]
    · simp [h, F64.canonNaN, bitsChars_ne_NaN, bits_round]
  fmt32_ne x := by
    by_cases h : x.isNaN = true
    · simp [h]
    · simp only [h]; exact bitsChars_ne _
  fmt64_ne x := by
    by_cases h : x.isNaN = true
    · simp [h]
    · simp only [h]; exact bitsChars_ne _
  fmt32_chars x := by
    by_cases h : x.isNaN = true
    · simp only [h, if_true]; decide
    · simp only [h]; exact bitsChars_chars _
  fmt64_chars x := by
    by_cases h : x.isNaN = true
    · simp only [h, if_true]; decide
    · simp only [h]; exact bitsChars_chars _

end Verif
