import Verif.Model.Decimal

/-!
# The literals of JSON numbers

`encoding/json` (`scanner.go` of the Go standard library) recognises a number with a state machine; this is that
machine.  `Verif.Spec.JsonText` has the grammar of RFC 8259, and `Verif.Json.NumberLaws` proves that they agree.
-/

namespace Verif

/-- The states of `encoding/json`'s scanner inside a number. -/
inductive NumState where
  /-- at the beginning (`stateBeginValue`) -/
  | start
  /-- after `-` (`stateNeg`) -/
  | neg
  /-- after a leading `0` (`state0`) -/
  | zero
  /-- after a non-zero digit and more digits (`state1`) -/
  | int
  /-- after `.` (`stateDot`) -/
  | dot
  /-- after digits of the fraction (`stateDot0`) -/
  | frac
  /-- after `e` or `E` (`stateE`) -/
  | e
  /-- after the sign of the exponent (`stateESign`) -/
  | esign
  /-- after digits of the exponent (`stateE0`) -/
  | exp
  deriving DecidableEq, Repr

/-- One character inside a number; `none`: the number ends before it, or an error. -/
def numStep : NumState → Char → Option NumState
  | .start, c => if c = '-' then some .neg else if c = '0' then some .zero
      else if isDigitChar c then some .int else none
  | .neg, c => if c = '0' then some .zero else if isDigitChar c then some .int else none
  | .zero, c => if c = '.' then some .dot else if c = 'e' ∨ c = 'E' then some .e else none
  | .int, c => if isDigitChar c then some .int else if c = '.' then some .dot
      else if c = 'e' ∨ c = 'E' then some .e else none
  | .dot, c => if isDigitChar c then some .frac else none
  | .frac, c => if isDigitChar c then some .frac else if c = 'e' ∨ c = 'E' then some .e else none
  | .e, c => if c = '+' ∨ c = '-' then some .esign else if isDigitChar c then some .exp else none
  | .esign, c => if isDigitChar c then some .exp else none
  | .exp, c => if isDigitChar c then some .exp else none

/-- The states in which a number may end. -/
def NumState.final : NumState → Bool
  | .zero | .int | .frac | .exp => true
  | _ => false

/-- The rest of a number from a state on. -/
def numFrom : NumState → List Char → Bool
  | s, [] => s.final
  | s, c :: cs => match numStep s c with
    | some s' => numFrom s' cs
    | none => false

/-- The literals of JSON numbers. -/
def isNumLit (cs : List Char) : Bool := numFrom .start cs

/-- The literal of a JSON number. -/
structure NumLit where
  chars : List Char
  valid : isNumLit chars = true
  deriving DecidableEq

theorem NumLit.ext' {a b : NumLit} (h : a.chars = b.chars) : a = b := by
  cases a; cases b; cases h; rfl

theorem numFrom_digits {s : NumState} (hs : s = .int ∨ s = .frac ∨ s = .exp) :
    ∀ {ds : List Char}, (∀ c ∈ ds, isDigitChar c = true) → numFrom s ds = true
  | [], _ => by rcases hs with rfl | rfl | rfl <;> rfl
  | d :: ds, h => by
    have hd : isDigitChar d = true := h d (.head _)
    have ih := numFrom_digits hs fun c hc => h c (.tail _ hc)
    rcases hs with rfl | rfl | rfl <;> simp [numFrom, numStep, hd, ih]

theorem digitChars_valid (n : Nat) (s : NumState) (hs : s = .start ∨ s = .neg) :
    numFrom s ((digits n).map digitChar) = true := by
  have hall : ∀ c ∈ (digits n).map digitChar, isDigitChar c = true := by
    intro c hc
    obtain ⟨d, hd, rfl⟩ := List.mem_map.1 hc
    exact (digitChar_val (digits_mem_lt n d hd)).2.1
  rcases Nat.eq_zero_or_pos n with rfl | hn
  · rcases hs with rfl | rfl <;> decide
  · obtain ⟨d, rest, e, hd⟩ := digits_head_pos hn
    rw [e] at hall ⊢
    have hlt : d < 10 := digits_mem_lt n d (by rw [e]; exact .head _)
    obtain ⟨-, h2, h3, h4⟩ := digitChar_val hlt
    have h0 : digitChar d ≠ '0' := fun h => by have := h4.1 h; omega
    have hr := numFrom_digits (s := .int) (.inl rfl) (ds := rest.map digitChar)
      (fun c hc => hall c (.tail _ hc))
    rcases hs with rfl | rfl <;> simp [numFrom, numStep, h2, h3, h0, hr]

theorem intChars_valid (i : Int) : isNumLit (intChars i) = true := by
  unfold intChars isNumLit
  split
  · simp only [numFrom, numStep, if_true]
    exact digitChars_valid _ _ (.inr rfl)
  · exact digitChars_valid _ _ (.inl rfl)

/-- An `int` as a JSON number: `strconv.AppendInt(dst, i, 10)`. -/
def NumLit.ofInt (i : Int) : NumLit := ⟨intChars i, intChars_valid i⟩

end Verif
