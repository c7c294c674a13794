/-!
# The UTF-8 encoding of characters (RFC 3629, section 4)
-/

namespace Verif.Utf8

/-- UTF8-tail -/
def Tail (b : UInt8) : Prop := 0x80 ≤ b.toNat ∧ b.toNat ≤ 0xBF

/-- The bytes of a character: UTF8-1 to UTF8-4 of section 4, and the number of the character that they denote according
to the table of section 3. -/
inductive Encodes : Char → List UInt8 → Prop
  | one {c : Char} {a : UInt8} : a.toNat ≤ 0x7F → c.toNat = a.toNat → Encodes c [a]
  | two {c : Char} {a b : UInt8} : 0xC2 ≤ a.toNat ∧ a.toNat ≤ 0xDF → Tail b →
      c.toNat = (a.toNat - 0xC0) * 2 ^ 6 + (b.toNat - 0x80) → Encodes c [a, b]
  | three {c : Char} {a b d : UInt8} :
      (a.toNat = 0xE0 ∧ 0xA0 ≤ b.toNat ∧ b.toNat ≤ 0xBF ∨ 0xE1 ≤ a.toNat ∧ a.toNat ≤ 0xEC ∧ Tail b ∨
        a.toNat = 0xED ∧ 0x80 ≤ b.toNat ∧ b.toNat ≤ 0x9F ∨ 0xEE ≤ a.toNat ∧ a.toNat ≤ 0xEF ∧ Tail b) → Tail d →
      c.toNat = (a.toNat - 0xE0) * 2 ^ 12 + (b.toNat - 0x80) * 2 ^ 6 + (d.toNat - 0x80) → Encodes c [a, b, d]
  | four {c : Char} {a b d e : UInt8} :
      (a.toNat = 0xF0 ∧ 0x90 ≤ b.toNat ∧ b.toNat ≤ 0xBF ∨ 0xF1 ≤ a.toNat ∧ a.toNat ≤ 0xF3 ∧ Tail b ∨
        a.toNat = 0xF4 ∧ 0x80 ≤ b.toNat ∧ b.toNat ≤ 0x8F) → Tail d → Tail e →
      c.toNat = (a.toNat - 0xF0) * 2 ^ 18 + (b.toNat - 0x80) * 2 ^ 12 + (d.toNat - 0x80) * 2 ^ 6 + (e.toNat - 0x80) →
      Encodes c [a, b, d, e]

/-- The bytes of a text: UTF8-octets. -/
inductive Octets : List Char → List UInt8 → Prop
  | nil : Octets [] []
  | cons {c : Char} {t : List Char} {x bs : List UInt8} : Encodes c x → Octets t bs → Octets (c :: t) (x ++ bs)

end Verif.Utf8
