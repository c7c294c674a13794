import Verif.Json.Value

/-!
# The grammar of JSON texts (RFC 8259)

`Text j t`: the text `t` is a JSON text that denotes the value `j`.  The grammar is that of RFC 8259, sections 2
to 7, one rule per production.  RFC 8259 leaves open what an escape sequence for an unpaired UTF-16 surrogate
denotes; `StrBody.lone` is the common choice, U+FFFD.

Texts are sequences of Unicode characters.
-/

namespace Verif.JsonText

/-- White space, RFC 8259 section 2. -/
def Ws (t : List Char) : Prop := ∀ c ∈ t, c = ' ' ∨ c = '\t' ∨ c = '\n' ∨ c = '\r'

/-- DIGIT -/
def Digits (t : List Char) : Prop := ∀ c ∈ t, '0' ≤ c ∧ c ≤ '9'

/-- Numbers, section 6: `[ minus ] int [ frac ] [ exp ]`. -/
inductive Number : List Char → Prop
  | mk (minus int frac exp : List Char) :
      (minus = [] ∨ minus = ['-']) →
      (int = ['0'] ∨ ∃ d ds, int = d :: ds ∧ '1' ≤ d ∧ d ≤ '9' ∧ Digits ds) →
      (frac = [] ∨ ∃ ds, frac = '.' :: ds ∧ ds ≠ [] ∧ Digits ds) →
      (exp = [] ∨ ∃ e sign ds, exp = e :: (sign ++ ds) ∧ (e = 'e' ∨ e = 'E') ∧
        (sign = [] ∨ sign = ['+'] ∨ sign = ['-']) ∧ ds ≠ [] ∧ Digits ds) →
      Number (minus ++ int ++ frac ++ exp)

/-- The value of a hexadecimal digit. -/
inductive Hex : Char → Nat → Prop
  | dig (n : Nat) : n < 10 → Hex (Char.ofNat ('0'.toNat + n)) n
  | lower (n : Nat) : n < 6 → Hex (Char.ofNat ('a'.toNat + n)) (10 + n)
  | upper (n : Nat) : n < 6 → Hex (Char.ofNat ('A'.toNat + n)) (10 + n)

/-- `%x75 4HEXDIG` with its backslash, and the code unit it denotes. -/
inductive U4 : List Char → Nat → Prop
  | mk {a b c d : Char} {i j k l : Nat} : Hex a i → Hex b j → Hex c k → Hex d l →
      U4 ['\\', 'u', a, b, c, d] (((i * 16 + j) * 16 + k) * 16 + l)

/-- The two-character escape sequences, section 7. -/
def shortEscapes : List (Char × Char) :=
  [('"', '"'), ('\\', '\\'), ('/', '/'), ('b', '\x08'), ('f', '\x0c'), ('n', '\n'), ('r', '\r'), ('t', '\t')]

/-- UTF-16 high surrogates. -/
def High (n : Nat) : Prop := 0xD800 ≤ n ∧ n ≤ 0xDBFF
/-- UTF-16 low surrogates. -/
def Low (n : Nat) : Prop := 0xDC00 ≤ n ∧ n ≤ 0xDFFF

/-- The characters of a string between the quotation marks, section 7, and what they denote. -/
inductive StrBody : List Char → List Char → Prop
  | nil : StrBody [] []
  | raw {c : Char} {s t : List Char} : 0x20 ≤ c.toNat → c ≠ '"' → c ≠ '\\' → StrBody s t →
      StrBody (c :: s) (c :: t)
  | short {e c : Char} {s t : List Char} : (e, c) ∈ shortEscapes → StrBody s t → StrBody (c :: s) ('\\' :: e :: t)
  | u4 {n : Nat} {x s t : List Char} : U4 x n → ¬ High n → ¬ Low n → StrBody s t →
      StrBody (Char.ofNat n :: s) (x ++ t)
  | pair {m n : Nat} {x y s t : List Char} : U4 x m → High m → U4 y n → Low n → StrBody s t →
      StrBody (Char.ofNat (0x10000 + (m - 0xD800) * 0x400 + (n - 0xDC00)) :: s) (x ++ (y ++ t))
  | lone {n : Nat} {x s t : List Char} : U4 x n → (High n ∨ Low n) →
      (High n → ∀ y m t', t = y ++ t' → U4 y m → ¬ Low m) → StrBody s t →
      StrBody (Char.ofNat 0xFFFD :: s) (x ++ t)

/-- A string with its quotation marks. -/
inductive Str : String → List Char → Prop
  | mk {s t : List Char} : StrBody s t → Str (String.ofList s) ('"' :: (t ++ ['"']))

mutual
/-- Values, section 3. -/
inductive Value : Json → List Char → Prop
  | null : Value .null ['n', 'u', 'l', 'l']
  | true : Value (.bool true) ['t', 'r', 'u', 'e']
  | false : Value (.bool false) ['f', 'a', 'l', 's', 'e']
  | num {lit : NumLit} : Number lit.chars → Value (.num lit) lit.chars
  | str {s : String} {t : List Char} : Str s t → Value (.str s) t
  | arr0 {w : List Char} : Ws w → Value (.arr []) ('[' :: (w ++ [']']))
  | arr {js : List Json} {t : List Char} : Elems js t → Value (.arr js) ('[' :: (t ++ [']']))
  | obj0 {w : List Char} : Ws w → Value (.obj []) ('{' :: (w ++ ['}']))
  | obj {ms : List (String × Json)} {t : List Char} : Members ms t → Value (.obj ms) ('{' :: (t ++ ['}']))
/-- The elements of an array, section 5: values separated by commas, with white space around them. -/
inductive Elems : List Json → List Char → Prop
  | one {w w' t : List Char} {j : Json} : Ws w → Value j t → Ws w' → Elems [j] (w ++ (t ++ w'))
  | cons {w w' t ts : List Char} {j : Json} {js : List Json} : Ws w → Value j t → Ws w' → Elems js ts →
      Elems (j :: js) (w ++ (t ++ (w' ++ ',' :: ts)))
/-- The members of an object, section 4. -/
inductive Members : List (String × Json) → List Char → Prop
  | one {w₁ w₂ w₃ w₄ k t : List Char} {s : String} {j : Json} : Ws w₁ → Str s k → Ws w₂ → Ws w₃ → Value j t →
      Ws w₄ → Members [(s, j)] (w₁ ++ (k ++ (w₂ ++ ':' :: (w₃ ++ (t ++ w₄)))))
  | cons {w₁ w₂ w₃ w₄ k t ts : List Char} {s : String} {j : Json} {ms : List (String × Json)} : Ws w₁ → Str s k →
      Ws w₂ → Ws w₃ → Value j t → Ws w₄ → Members ms ts →
      Members ((s, j) :: ms) (w₁ ++ (k ++ (w₂ ++ ':' :: (w₃ ++ (t ++ (w₄ ++ ',' :: ts))))))
end

/-- A JSON text, section 2: a value with white space around it. -/
inductive Text : Json → List Char → Prop
  | mk {w w' t : List Char} {j : Json} : Ws w → Value j t → Ws w' → Text j (w ++ (t ++ w'))

end Verif.JsonText
