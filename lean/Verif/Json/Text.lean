import Verif.Json.Value

/-!
# The text of JSON documents

What `encoding/json` writes for a syntax tree (`encode.go`, `indent.go`) and how it reads a text (`scanner.go`,
`decode.go` of the Go standard library).  Texts are sequences of Unicode characters; their encoding in UTF-8 is
not modelled (bytes that are not UTF-8 are replaced by U+FFFD by Go, in both directions).
-/

namespace Verif.JText

/-! ## Writing -/

/-- A syntax tree with marks at the values that a `MarshalJSON` method of the library returns.  These methods
call `json.Marshal`, which always escapes HTML; `SetEscapeHTML(false)` has no effect on what they return.  Which
values are marked follows from the types; the theorems hold for all possible marks. -/
inductive Marked where
  | null
  | bool (b : Bool)
  | num (lit : NumLit)
  | str (s : String)
  | arr (xs : List Marked)
  | obj (ms : List (String × Marked))
  | custom (m : Marked)

mutual
/-- The syntax tree without marks. -/
def Marked.erase : Marked → Json
  | .null => .null
  | .bool b => .bool b
  | .num l => .num l
  | .str s => .str s
  | .arr xs => .arr (eraseL xs)
  | .obj ms => .obj (eraseM ms)
  | .custom m => m.erase
/-- The elements of an array. -/
def eraseL : List Marked → List Json
  | [] => []
  | x :: xs => x.erase :: eraseL xs
/-- The members of an object. -/
def eraseM : List (String × Marked) → List (String × Json)
  | [] => []
  | (k, m) :: ms => (k, m.erase) :: eraseM ms
end

mutual
/-- A syntax tree without any mark. -/
def plain : Json → Marked
  | .null => .null
  | .bool b => .bool b
  | .num l => .num l
  | .str s => .str s
  | .arr xs => .arr (plainL xs)
  | .obj ms => .obj (plainM ms)
/-- The elements of an array. -/
def plainL : List Json → List Marked
  | [] => []
  | x :: xs => plain x :: plainL xs
/-- The members of an object. -/
def plainM : List (String × Json) → List (String × Marked)
  | [] => []
  | (k, m) :: ms => (k, plain m) :: plainM ms
end

/-- A lower case hexadecimal digit: the constant `hex` of `encode.go`. -/
def hexDigit (n : Nat) : Char := if n < 10 then Char.ofNat (48 + n) else Char.ofNat (87 + n)

/-- A `\u` escape. -/
def u4 (n : Nat) : List Char :=
  ['\\', 'u', hexDigit (n / 4096 % 16), hexDigit (n / 256 % 16), hexDigit (n / 16 % 16), hexDigit (n % 16)]

/-- One character of a string: `appendString` of `encode.go`. -/
def escapeChar (html : Bool) (c : Char) : List Char :=
  if c = '"' then ['\\', '"']
  else if c = '\\' then ['\\', '\\']
  else if c = '\x08' then ['\\', 'b']
  else if c = '\x0c' then ['\\', 'f']
  else if c = '\n' then ['\\', 'n']
  else if c = '\r' then ['\\', 'r']
  else if c = '\t' then ['\\', 't']
  else if c.toNat < 0x20 then u4 c.toNat
  else if html ∧ (c = '<' ∨ c = '>' ∨ c = '&') then u4 c.toNat
  else if c = Char.ofNat 0x2028 ∨ c = Char.ofNat 0x2029 then u4 c.toNat
  else [c]

/-- The characters of a string between the quotation marks. -/
def escapeAll (html : Bool) : List Char → List Char
  | [] => []
  | c :: cs => escapeChar html c ++ escapeAll html cs

/-- A string with its quotation marks. -/
def quote (html : Bool) (s : String) : List Char := '"' :: (escapeAll html s.toList ++ ['"'])

/-- A new line with indentation: `appendNewline` of `indent.go` with an empty prefix and two spaces
(encode.go:64-66); nothing if the output is not indented. -/
def newline (pretty : Bool) (depth : Nat) : List Char :=
  if pretty then '\n' :: List.replicate (2 * depth) ' ' else []

mutual
/-- A value.  (Go writes the compact form first and then indents it, `appendIndent` of `indent.go`; the model
writes the indented form at once.) -/
def render (pretty html : Bool) (depth : Nat) : Marked → List Char
  | .null => ['n', 'u', 'l', 'l']
  | .bool true => ['t', 'r', 'u', 'e']
  | .bool false => ['f', 'a', 'l', 's', 'e']
  | .num l => l.chars
  | .str s => quote html s
  | .arr [] => ['[', ']']
  | .arr (x :: xs) =>
    '[' :: (newline pretty (depth + 1) ++ render pretty html (depth + 1) x ++
      renderL pretty html (depth + 1) xs ++ newline pretty depth ++ [']'])
  | .obj [] => ['{', '}']
  | .obj (m :: ms) =>
    '{' :: (newline pretty (depth + 1) ++ renderP pretty html (depth + 1) m ++
      renderM pretty html (depth + 1) ms ++ newline pretty depth ++ ['}'])
  | .custom m => render pretty true depth m
/-- The elements of an array after the first. -/
def renderL (pretty html : Bool) (depth : Nat) : List Marked → List Char
  | [] => []
  | x :: xs => ',' :: (newline pretty depth ++ render pretty html depth x ++ renderL pretty html depth xs)
/-- The members of an object after the first. -/
def renderM (pretty html : Bool) (depth : Nat) : List (String × Marked) → List Char
  | [] => []
  | m :: ms => ',' :: (newline pretty depth ++ renderP pretty html depth m ++ renderM pretty html depth ms)
/-- One member. -/
def renderP (pretty html : Bool) (depth : Nat) : String × Marked → List Char
  | (k, m) => quote html k ++ ':' :: ((if pretty then [' '] else []) ++ render pretty html depth m)
end

/-! ## Reading -/

/-- `isSpace` of `scanner.go`. -/
def isSpace (c : Char) : Bool := c = ' ' ∨ c = '\t' ∨ c = '\r' ∨ c = '\n'

/-- White space. -/
def skipWs : List Char → List Char
  | [] => []
  | c :: cs => if isSpace c then skipWs cs else c :: cs

/-- The characters that can occur in a number. -/
def isNumChar (c : Char) : Bool := isDigitChar c || c = '-' || c = '+' || c = '.' || c = 'e' || c = 'E'

/-- The value of a hexadecimal digit: `getu4` of `decode.go`. -/
def hexVal (c : Char) : Option Nat :=
  if '0' ≤ c ∧ c ≤ '9' then some (c.toNat - 48)
  else if 'a' ≤ c ∧ c ≤ 'f' then some (c.toNat - 87)
  else if 'A' ≤ c ∧ c ≤ 'F' then some (c.toNat - 55)
  else none

/-- The code unit of four hexadecimal digits. -/
def hex4 (a b c d : Char) : Option Nat :=
  match hexVal a, hexVal b, hexVal c, hexVal d with
  | some i, some j, some k, some l => some (((i * 16 + j) * 16 + k) * 16 + l)
  | _, _, _, _ => none

/-- UTF-16 high surrogates. -/
def isHigh (n : Nat) : Bool := 0xD800 ≤ n && n ≤ 0xDBFF
/-- UTF-16 low surrogates. -/
def isLow (n : Nat) : Bool := 0xDC00 ≤ n && n ≤ 0xDFFF

/-- The two-character escape sequences: `unquoteBytes` of `decode.go`. -/
def shortEscape (e : Char) : Option Char :=
  if e = '"' then some '"' else if e = '\\' then some '\\' else if e = '/' then some '/'
  else if e = 'b' then some '\x08' else if e = 'f' then some '\x0c' else if e = 'n' then some '\n'
  else if e = 'r' then some '\r' else if e = 't' then some '\t' else none

/-- The code unit of a `\u` escape at the beginning of a text. -/
def peekU4 : List Char → Option Nat
  | '\\' :: 'u' :: a :: b :: c :: d :: _ => hex4 a b c d
  | _ => none

/-- The rest of a string after the opening quotation mark: what it denotes, and the text after the closing
quotation mark.  `stateInString` of `scanner.go` and `unquoteBytes` of `decode.go`.  The first argument bounds
the recursion. -/
def pStr : Nat → List Char → Option (List Char × List Char)
  | 0, _ => none
  | _ + 1, [] => none
  | f + 1, c :: cs =>
    if c = '"' then some ([], cs)
    else if c = '\\' then
      match cs with
      | [] => none
      | e :: cs =>
        if e = 'u' then
          match cs with
          | a :: b :: c :: d :: cs =>
            match hex4 a b c d with
            | none => none
            | some m =>
              if isHigh m || isLow m then
                match peekU4 cs with
                | some n =>
                  if isHigh m && isLow n then
                    (pStr f (cs.drop 6)).map fun p =>
                      (Char.ofNat (0x10000 + (m - 0xD800) * 0x400 + (n - 0xDC00)) :: p.1, p.2)
                  else (pStr f cs).map fun p => (Char.ofNat 0xFFFD :: p.1, p.2)
                | none => (pStr f cs).map fun p => (Char.ofNat 0xFFFD :: p.1, p.2)
              else (pStr f cs).map fun p => (Char.ofNat m :: p.1, p.2)
          | _ => none
        else
          match shortEscape e with
          | some x => (pStr f cs).map fun p => (x :: p.1, p.2)
          | none => none
    else if c.toNat < 0x20 then none
    else (pStr f cs).map fun p => (c :: p.1, p.2)

/-- A string after the opening quotation mark. -/
def pString (cs : List Char) : Option (String × List Char) :=
  (pStr (cs.length + 1) cs).map fun p => (String.ofList p.1, p.2)

mutual
/-- A value at the beginning of a text, and the text after it.  The first argument bounds the recursion. -/
def pValue : Nat → List Char → Option (Json × List Char)
  | 0, _ => none
  | _ + 1, [] => none
  | f + 1, c :: cs =>
    if c = 'n' then
      match cs with
      | 'u' :: 'l' :: 'l' :: r => some (.null, r)
      | _ => none
    else if c = 't' then
      match cs with
      | 'r' :: 'u' :: 'e' :: r => some (.bool true, r)
      | _ => none
    else if c = 'f' then
      match cs with
      | 'a' :: 'l' :: 's' :: 'e' :: r => some (.bool false, r)
      | _ => none
    else if c = '"' then (pString cs).map fun p => (.str p.1, p.2)
    else if c = '[' then
      match skipWs cs with
      | ']' :: r => some (.arr [], r)
      | _ => (pElems f cs).map fun p => (.arr p.1, p.2)
    else if c = '{' then
      match skipWs cs with
      | '}' :: r => some (.obj [], r)
      | _ => (pMembers f cs).map fun p => (.obj p.1, p.2)
    else if h : isNumLit ((c :: cs).takeWhile isNumChar) then
      some (.num ⟨(c :: cs).takeWhile isNumChar, h⟩, (c :: cs).dropWhile isNumChar)
    else none
/-- The elements of an array after the opening bracket, and the text after the closing bracket. -/
def pElems : Nat → List Char → Option (List Json × List Char)
  | 0, _ => none
  | f + 1, cs =>
    match pValue f (skipWs cs) with
    | none => none
    | some (v, r) =>
      match skipWs r with
      | [] => none
      | c :: r =>
        if c = ',' then (pElems f r).map fun p => (v :: p.1, p.2)
        else if c = ']' then some ([v], r)
        else none
/-- The members of an object after the opening brace, and the text after the closing brace. -/
def pMembers : Nat → List Char → Option (List (String × Json) × List Char)
  | 0, _ => none
  | f + 1, cs =>
    match skipWs cs with
    | '"' :: r =>
      match pString r with
      | none => none
      | some (k, r) =>
        match skipWs r with
        | ':' :: r =>
          match pValue f (skipWs r) with
          | none => none
          | some (v, r) =>
            match skipWs r with
            | [] => none
            | c :: r =>
              if c = ',' then (pMembers f r).map fun p => ((k, v) :: p.1, p.2)
              else if c = '}' then some ([(k, v)], r)
              else none
        | _ => none
    | _ => none
end

/-- A whole text: one value with white space around it (`checkValid` of `scanner.go`). -/
def parse (t : List Char) : Option Json :=
  match pValue (2 * t.length + 2) (skipWs t) with
  | none => none
  | some (j, r) => if skipWs r = [] then some j else none

end Verif.JText
