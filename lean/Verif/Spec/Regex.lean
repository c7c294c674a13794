import Verif.Model.Link

/-!
# Specification: the regular expressions of the library as languages

A small regular-expression syntax with its usual denotation, and the two expressions of the code
transcribed from the source text.  Nothing here refers to the scanners of `Verif.Model.Link`; the only
things used from the model are the type `Bytes` and `utf8` (bytes of a literal).
-/

namespace Verif.Spec

/-- Regular expressions over bytes. A class is a list of inclusive character ranges. -/
inductive Re where
  | lit (w : Bytes)
  | cls (ranges : List (Char × Char))
  | seq (a b : Re)
  | star (a : Re)
  | rep (n : Nat) (a : Re)
  | opt (a : Re)

/-- The byte is in one of the inclusive ranges. -/
def inRanges (rs : List (Char × Char)) (b : UInt8) : Bool :=
  rs.any fun r => r.1.toNat ≤ b.toNat && b.toNat ≤ r.2.toNat

/-- The language of a regular expression. -/
def Re.Lang : Re → Bytes → Prop
  | .lit w, s => s = w
  | .cls rs, s => ∃ b, inRanges rs b = true ∧ s = [b]
  | .seq a b, s => ∃ x y, s = x ++ y ∧ a.Lang x ∧ b.Lang y
  | .star a, s => ∃ xs : List Bytes, (∀ x ∈ xs, a.Lang x) ∧ s = xs.flatten
  | .rep n a, s => ∃ xs : List Bytes, xs.length = n ∧ (∀ x ∈ xs, a.Lang x) ∧ s = xs.flatten
  | .opt a, s => s = [] ∨ a.Lang s

infixr:65 " ⬝ " => Re.seq

/-- One character as a range. -/
def one (c : Char) : Char × Char := (c, c)

/-- `[\da-f]` -/
def hexRe : Re := .cls [('0', '9'), ('a', 'f')]

/-- `[\da-f]{8}-[\da-f]{4}-[\da-f]{4}-[\da-f]{4}-[\da-f]{12}` -/
def uuidRe : Re :=
  .rep 8 hexRe ⬝ .lit (utf8 "-") ⬝ .rep 4 hexRe ⬝ .lit (utf8 "-") ⬝ .rep 4 hexRe ⬝ .lit (utf8 "-") ⬝
    .rep 4 hexRe ⬝ .lit (utf8 "-") ⬝ .rep 12 hexRe

/-- cyclonedx.go:1396 `^urn:uuid:…$` -/
def serialRe : Re := .lit (utf8 "urn:uuid:") ⬝ uuidRe

/-- `[1-9]\d*` -/
def versionRe : Re := .cls [('1', '9')] ⬝ .star (.cls [('0', '9')])

/-- ``[\da-zA-Z\-._~%!$&'()*+,;=:@/?]`` -/
def refClass : List (Char × Char) :=
  [('0', '9'), ('a', 'z'), ('A', 'Z'), one '-', one '.', one '_', one '~', one '%', one '!', one '$',
   one '&', one '\'', one '(', one ')', one '*', one '+', one ',', one ';', one '=', one ':', one '@',
   one '/', one '?']

/-- ``[\da-zA-Z\-._~%!$&'()*+,;=:@/?]+`` -/
def refRe : Re := .cls refClass ⬝ .star (.cls refClass)

/-- link.go:112 `^urn:cdx:(serial)/(version)(?:#(ref))?$` -/
def bomLinkRe : Re :=
  .lit (utf8 "urn:cdx:") ⬝ uuidRe ⬝ .lit (utf8 "/") ⬝ versionRe ⬝ .opt (.lit (utf8 "#") ⬝ refRe)

/-- Every `%` of `s` is followed by two hexadecimal digits (of either case) that belong to it. -/
inductive WellEscaped : Bytes → Prop where
  | nil : WellEscaped []
  | plain {b s} : b ≠ 37 → WellEscaped s → WellEscaped (b :: s)
  | esc {h l s} : inRanges [('0', '9'), ('a', 'f'), ('A', 'F')] h = true →
      inRanges [('0', '9'), ('a', 'f'), ('A', 'F')] l = true → WellEscaped s →
      WellEscaped (37 :: h :: l :: s)

end Verif.Spec
