/-!
# Decimal notation of natural numbers

Models Go's `strconv.Itoa` / `%d` and the digit loop of `strconv.Atoi` (standard library, trusted
description), on lists of digit values.
-/

namespace Verif

/-- Digits of `n`, most significant first, with a fuel argument that only bounds the recursion. -/
def digitsAux : Nat → Nat → List Nat
  | 0, _ => []
  | fuel + 1, n => if n < 10 then [n] else digitsAux fuel (n / 10) ++ [n % 10]

/-- The decimal digits of `n`, most significant first, without leading zeros (`0` is `[0]`). -/
def digits (n : Nat) : List Nat := digitsAux (n + 1) n

/-- The number denoted by a list of decimal digits, most significant first. -/
def ofDigits (ds : List Nat) : Nat := ds.foldl (fun acc d => acc * 10 + d) 0

theorem digitsAux_stable : ∀ (f g n : Nat), n < f → n < g → digitsAux f n = digitsAux g n
  | 0, _, _, h, _ => absurd h (Nat.not_lt_zero _)
  | _ + 1, 0, _, _, h => absurd h (Nat.not_lt_zero _)
  | f + 1, g + 1, n, hf, hg => by
      unfold digitsAux
      split
      · rfl
      · rw [digitsAux_stable f g (n / 10) (by omega) (by omega)]

theorem digits_lt {n : Nat} (h : n < 10) : digits n = [n] := by
  simp [digits, digitsAux, h]

theorem digits_ge {n : Nat} (h : ¬ n < 10) : digits n = digits (n / 10) ++ [n % 10] := by
  unfold digits
  rw [digitsAux, if_neg h, digitsAux_stable n (n / 10 + 1) (n / 10) (by omega) (by omega)]

theorem ofDigits_append_single (ds : List Nat) (d : Nat) :
    ofDigits (ds ++ [d]) = ofDigits ds * 10 + d := by
  simp [ofDigits, List.foldl_append]

theorem ofDigits_digits (n : Nat) : ofDigits (digits n) = n := by
  induction n using Nat.strongRecOn with
  | ind n ih =>
    by_cases h : n < 10
    · rw [digits_lt h]; simp [ofDigits]
    · rw [digits_ge h, ofDigits_append_single, ih (n / 10) (by omega)]; omega

theorem digits_mem_lt (n : Nat) : ∀ d ∈ digits n, d < 10 := by
  induction n using Nat.strongRecOn with
  | ind n ih =>
    by_cases h : n < 10
    · rw [digits_lt h]; intro d hd; simp at hd; omega
    · rw [digits_ge h]
      intro d hd
      rcases List.mem_append.1 hd with hd | hd
      · exact ih (n / 10) (by omega) d hd
      · simp at hd; omega

theorem digits_ne_nil (n : Nat) : digits n ≠ [] := by
  by_cases h : n < 10
  · rw [digits_lt h]; simp
  · rw [digits_ge h]; simp

theorem digits_head_pos {n : Nat} (h : 0 < n) : ∃ d rest, digits n = d :: rest ∧ 0 < d := by
  induction n using Nat.strongRecOn with
  | ind n ih =>
    by_cases h10 : n < 10
    · exact ⟨n, [], digits_lt h10, h⟩
    · obtain ⟨d, rest, e, hd⟩ := ih (n / 10) (by omega) (by omega)
      exact ⟨d, rest ++ [n % 10], by rw [digits_ge h10, e]; rfl, hd⟩

/-- The fold of `ofDigits` started at an arbitrary accumulator. -/
theorem foldl_digits_pos (ds : List Nat) : ∀ acc, 0 < acc →
    0 < ds.foldl (fun acc d => acc * 10 + d) acc := by
  induction ds with
  | nil => intro acc h; exact h
  | cons d ds ih => intro acc h; exact ih _ (by show 0 < acc * 10 + d; omega)

theorem ofDigits_pos {d : Nat} {rest : List Nat} (hd : 0 < d) : 0 < ofDigits (d :: rest) := by
  simp only [ofDigits, List.foldl_cons]
  exact foldl_digits_pos rest _ (by omega)

/-- A digit list without a leading zero is the notation of the number it denotes. -/
theorem digits_ofDigits (ds : List Nat) (hlt : ∀ d ∈ ds, d < 10)
    (hhead : ∃ d rest, ds = d :: rest ∧ 0 < d) : digits (ofDigits ds) = ds := by
  obtain ⟨d, rest, rfl, hd⟩ := hhead
  generalize hn : rest.length = n
  induction n generalizing rest with
  | zero =>
    cases List.length_eq_zero_iff.1 hn
    have : d < 10 := hlt d (by simp)
    simp [ofDigits, digits_lt this]
  | succ n ih =>
    obtain ⟨init, last, rfl⟩ : ∃ init last, rest = init ++ [last] := by
      refine ⟨rest.dropLast, rest.getLast (by intro h; simp [h] at hn), ?_⟩
      exact (List.dropLast_concat_getLast _).symm
    have hl : last < 10 := hlt last (by simp)
    have hp : 0 < ofDigits (d :: init) := ofDigits_pos hd
    have ih' := ih init (fun x hx => hlt x (by
      simp only [List.mem_cons, List.mem_append] at hx ⊢
      rcases hx with h | h
      · exact Or.inl h
      · exact Or.inr (Or.inl h))) (by simpa using hn)
    have e : d :: (init ++ [last]) = (d :: init) ++ [last] := rfl
    rw [e, ofDigits_append_single, digits_ge (by omega)]
    have h1 : (ofDigits (d :: init) * 10 + last) / 10 = ofDigits (d :: init) := by omega
    have h2 : (ofDigits (d :: init) * 10 + last) % 10 = last := by omega
    rw [h1, h2, ih']

theorem digits_injective {m n : Nat} (h : digits m = digits n) : m = n := by
  rw [← ofDigits_digits m, ← ofDigits_digits n, h]

end Verif

namespace Verif

/-- The character of a decimal digit. -/
def digitChar (d : Nat) : Char := Char.ofNat (48 + d)

/-- `strconv.FormatInt(i, 10)`, also what encoding/json, encoding/xml and `%d` print for an `int`. -/
def intChars (i : Int) : List Char :=
  if i < 0 then '-' :: (digits i.natAbs).map digitChar else (digits i.natAbs).map digitChar

/-- `strconv.FormatInt(i, 10)` as a string. -/
def intString (i : Int) : String := String.ofList (intChars i)

/-- Value of a decimal digit character. -/
def charVal (c : Char) : Nat := c.toNat - 48

/-- ASCII digit. -/
def isDigitChar (c : Char) : Bool := '0' ≤ c && c ≤ '9'

theorem digitChar_val {d : Nat} (h : d < 10) :
    charVal (digitChar d) = d ∧ isDigitChar (digitChar d) = true ∧ digitChar d ≠ '-' ∧
      (digitChar d = '0' ↔ d = 0) := by
  have : ∀ d : Fin 10, charVal (digitChar d) = d ∧ isDigitChar (digitChar d) = true ∧
      digitChar d ≠ '-' ∧ (digitChar d = '0' ↔ d.val = 0) := by decide
  exact this ⟨d, h⟩

theorem map_charVal_digitChar (ds : List Nat) (h : ∀ d ∈ ds, d < 10) :
    (ds.map digitChar).map charVal = ds := by
  induction ds with
  | nil => rfl
  | cons d ds ih =>
    simp only [List.map_cons, List.cons.injEq]
    exact ⟨(digitChar_val (h d (by simp))).1, ih fun x hx => h x (by simp [hx])⟩

theorem map_digitChar_injective {m n : Nat}
    (h : (digits m).map digitChar = (digits n).map digitChar) : m = n := by
  have := congrArg (List.map charVal) h
  rw [map_charVal_digitChar _ (digits_mem_lt m), map_charVal_digitChar _ (digits_mem_lt n)] at this
  exact digits_injective this

theorem digitChars_not_minus (n : Nat) : ∀ c ∈ (digits n).map digitChar, c ≠ '-' := by
  intro c hc
  obtain ⟨d, hd, rfl⟩ := List.mem_map.1 hc
  exact (digitChar_val (digits_mem_lt n d hd)).2.2.1

theorem intChars_injective {a b : Int} (h : intChars a = intChars b) : a = b := by
  unfold intChars at h
  split at h <;> split at h
  · have := map_digitChar_injective (List.cons.inj h).2; omega
  · exact absurd rfl (digitChars_not_minus b.natAbs '-' (by rw [← h]; simp))
  · exact absurd rfl (digitChars_not_minus a.natAbs '-' (by rw [h]; simp))
  · have := map_digitChar_injective h; omega

end Verif
