import Verif.Model.Types
import Verif.Model.Decimal

/-!
# BOM-Link: model of /repo/link.go

Go strings are byte strings here (`List UInt8`), so also strings that are not valid UTF-8 are covered.
-/

namespace Verif

/-- A Go string as the sequence of its bytes. -/
abbrev Bytes := List UInt8

/-- The bytes of a Lean string literal (UTF-8). -/
def utf8 (s : String) : Bytes := s.toByteArray.data.toList

namespace Link

/-- Go regexp class `\d` (ASCII only). -/
def isDigit (b : UInt8) : Bool := 48 ≤ b && b ≤ 57

/-- Go regexp class `[\da-f]`. -/
def isLowerHex (b : UInt8) : Bool := isDigit b || (97 ≤ b && b ≤ 102)

/-- The class of the reference group of link.go:112, ``[\da-zA-Z\-._~%!$&'()*+,;=:@/?]``. -/
def isRefByte (b : UInt8) : Bool :=
  isDigit b || (97 ≤ b && b ≤ 122) || (65 ≤ b && b ≤ 90) ||
    (utf8 "-._~%!$&'()*+,;=:@/?").contains b

/-- Consumes a literal prefix. -/
def lit : Bytes → Bytes → Option Bytes
  | [], s => some s
  | _ :: _, [] => none
  | p :: ps, b :: bs => if p = b then lit ps bs else none

/-- Consumes exactly `n` bytes of the class `[\da-f]`; returns them and the rest. -/
def takeHex : Nat → Bytes → Option (Bytes × Bytes)
  | 0, s => some ([], s)
  | _ + 1, [] => none
  | n + 1, b :: bs =>
    if isLowerHex b then
      match takeHex n bs with
      | some (xs, rest) => some (b :: xs, rest)
      | none => none
    else none

/-- Scanner for `[\da-f]{8}-[\da-f]{4}-[\da-f]{4}-[\da-f]{4}-[\da-f]{12}`, the common part of
cyclonedx.go:1396 and link.go:112; returns the text matched and the rest. -/
def takeUUID (s : Bytes) : Option (Bytes × Bytes) := do
  let (a, s) ← takeHex 8 s
  let s ← lit (utf8 "-") s
  let (b, s) ← takeHex 4 s
  let s ← lit (utf8 "-") s
  let (c, s) ← takeHex 4 s
  let s ← lit (utf8 "-") s
  let (d, s) ← takeHex 4 s
  let s ← lit (utf8 "-") s
  let (e, s) ← takeHex 12 s
  return (a ++ utf8 "-" ++ b ++ utf8 "-" ++ c ++ utf8 "-" ++ d ++ utf8 "-" ++ e, s)

/-- cyclonedx.go:1396 `serialNumberRegex.MatchString`. The regular expression is modelled by a
deterministic scanner; `Verif.Spec.Regex` gives the regular expression itself and the theorems relate
the two. -/
def serialNumberMatch (s : Bytes) : Bool :=
  match lit (utf8 "urn:uuid:") s with
  | none => false
  | some s =>
    match takeUUID s with
    | some (_, []) => true
    | _ => false

/-- The three capture groups of link.go:112; an absent third group is the empty string, as in Go's
`FindStringSubmatch`. -/
structure Matches where
  serial : Bytes
  version : Bytes
  ref : Bytes
  deriving DecidableEq, Repr

/-- link.go:112 `bomLinkRegex.FindStringSubmatch` (scanner; see `Verif.Spec.Regex`). -/
def findSubmatch (s : Bytes) : Option Matches := do
  let s ← lit (utf8 "urn:cdx:") s
  let (serial, s) ← takeUUID s
  let s ← lit (utf8 "/") s
  let version := s.takeWhile isDigit
  let rest := s.dropWhile isDigit
  match version with
  | [] => none
  | d :: _ =>
    if d = 48 then none
    else
      match rest with
      | [] => some ⟨serial, version, []⟩
      | h :: ref =>
        if h = 35 && !ref.isEmpty && ref.all isRefByte then some ⟨serial, version, ref⟩ else none

/-- link.go:115-117 -/
def isBOMLink (s : Bytes) : Bool := (findSubmatch s).isSome

/-- The byte of a decimal digit. -/
def digitByte (d : Nat) : UInt8 := UInt8.ofNat (48 + d)

/-- The value of a decimal digit byte. -/
def digitVal (b : UInt8) : Nat := b.toNat - 48

/-- fmt's `%d` for an `int` (standard library). -/
def formatInt (i : Int) : Bytes :=
  if i < 0 then 45 :: (digits i.natAbs).map digitByte else (digits i.natAbs).map digitByte

/-- `strconv.Atoi` on a non-empty string of decimal digits: `none` is the range error (standard
library; 64-bit `int`). -/
def atoi (s : Bytes) : Option Int :=
  let n := ofDigits (s.map digitVal)
  if n ≤ 9223372036854775807 then some n else none

/-- net/url `shouldEscape(c, encodeQueryComponent)` negated: bytes `QueryEscape` copies. -/
def isUnreserved (b : UInt8) : Bool :=
  isDigit b || (97 ≤ b && b ≤ 122) || (65 ≤ b && b ≤ 90) || b = 45 || b = 95 || b = 46 || b = 126

/-- The digits used by `QueryEscape`: `"0123456789ABCDEF"`. -/
def upperHex (n : Nat) : UInt8 := if n < 10 then UInt8.ofNat (48 + n) else UInt8.ofNat (55 + n)

/-- net/url `QueryEscape` of one byte. -/
def escapeByte (b : UInt8) : Bytes :=
  if b = 32 then [43]
  else if isUnreserved b then [b]
  else [37, upperHex (b.toNat / 16), upperHex (b.toNat % 16)]

/-- net/url `QueryEscape` (standard library). -/
def queryEscape (s : Bytes) : Bytes := s.flatMap escapeByte

/-- net/url `ishex` / `unhex`. -/
def unhex (b : UInt8) : Option Nat :=
  if isDigit b then some (b.toNat - 48)
  else if 97 ≤ b && b ≤ 102 then some (b.toNat - 87)
  else if 65 ≤ b && b ≤ 70 then some (b.toNat - 55)
  else none

/-- net/url `QueryUnescape` (standard library): `none` is `EscapeError`. -/
def queryUnescape : Bytes → Option Bytes
  | [] => some []
  | 37 :: h :: l :: rest =>
    match unhex h, unhex l with
    | some hi, some lo =>
      match queryUnescape rest with
      | some r => some (UInt8.ofNat (16 * hi + lo) :: r)
      | none => none
    | _, _ => none
  | 37 :: _ => none
  | b :: rest =>
    match queryUnescape rest with
    | some r => some ((if b = 43 then 32 else b) :: r)
    | none => none

/-- link.go:34-38 (the fields are unexported: values arise from `newBOMLink`, `parseBOMLink` and the
zero value only).  The projections are the accessors of link.go:87-99. -/
structure BOMLink where
  serialNumber : Bytes := []
  version : Int := 0
  reference : Bytes := []
  deriving DecidableEq, Repr

/-- The `elem interface{}` argument of `NewBOMLink`, by its dynamic type. For the six linkable types
only the value matters; `other` stands for every other dynamic type. -/
inductive Elem where
  | nil
  | component (c : Component)
  | componentPtr (c : Option Component)
  | service (s : Service)
  | servicePtr (s : Option Service)
  | vulnerability (v : Vulnerability)
  | vulnerabilityPtr (v : Option Vulnerability)
  | other

/-- Outcome of a Go call that may return an error or panic. -/
inductive Outcome (α : Type u) where
  | ok (a : α)
  | err (msg : String)
  | panic
  deriving DecidableEq, Repr

/-- The check `ref == ""` and the returned link, link.go:75-85. -/
def linkTo (serial : Bytes) (version : Int) (ref : Bytes) : Outcome BOMLink :=
  if ref = [] then .err "the provided element does not have a bom reference"
  else .ok ⟨serial, version, ref⟩

/-- link.go:46-86. A typed nil pointer is dereferenced by the Go code and panics. -/
def newBOMLink (serial : Bytes) (version : Int) (elem : Elem) : Outcome BOMLink :=
  if !serialNumberMatch serial then .err "invalid serial number"
  else if version < 1 then .err "invalid version: must not be negative or zero"
  else
    match elem with
    | .nil => .ok ⟨serial, version, []⟩
    | .component c => linkTo serial version (utf8 c.bomRef)
    | .componentPtr (some c) => linkTo serial version (utf8 c.bomRef)
    | .componentPtr none => .panic
    | .service s => linkTo serial version (utf8 s.bomRef)
    | .servicePtr (some s) => linkTo serial version (utf8 s.bomRef)
    | .servicePtr none => .panic
    | .vulnerability v => linkTo serial version (utf8 v.bomRef)
    | .vulnerabilityPtr (some v) => linkTo serial version (utf8 v.bomRef)
    | .vulnerabilityPtr none => .panic
    | .other => .err "element is not linkable"

/-- `strings.TrimPrefix(s, "urn:uuid:")` (standard library). -/
def trimURN (s : Bytes) : Bytes :=
  match lit (utf8 "urn:uuid:") s with
  | some rest => rest
  | none => s

/-- link.go:104-110 -/
def BOMLink.string (b : BOMLink) : Bytes :=
  if b.reference = [] then
    utf8 "urn:cdx:" ++ trimURN b.serialNumber ++ utf8 "/" ++ formatInt b.version
  else
    utf8 "urn:cdx:" ++ trimURN b.serialNumber ++ utf8 "/" ++ formatInt b.version ++ utf8 "#" ++
      queryEscape b.reference

/-- link.go:120-148. `len(matches) == 4` always holds for a match, so the unescaping always runs (on
the empty string when the group is absent). -/
def parseBOMLink (s : Bytes) : Except String BOMLink :=
  match findSubmatch s with
  | none => .error "invalid bom link"
  | some m =>
    match atoi m.version with
    | none => .error "failed to parse version"
    | some version =>
      match queryUnescape m.ref with
      | none => .error "failed to unescape reference"
      | some ref => .ok ⟨utf8 "urn:uuid:" ++ m.serial, version, ref⟩

end Link
end Verif
