import Verif.Spec.JsonText

/-!
# The scanner's number literals are those of RFC 8259
-/

namespace Verif
open JsonText

theorem isDigitChar_iff {c : Char} : isDigitChar c = true ↔ '0' ≤ c ∧ c ≤ '9' := by
  simp [isDigitChar]

theorem Digits.cons {c : Char} {cs : List Char} : Digits (c :: cs) ↔ isDigitChar c = true ∧ Digits cs := by
  simp [Digits, isDigitChar_iff]

/-- `[ exp ]` -/
def OptExp (t : List Char) : Prop :=
  t = [] ∨ ∃ e sign ds, t = e :: (sign ++ ds) ∧ (e = 'e' ∨ e = 'E') ∧
    (sign = [] ∨ sign = ['+'] ∨ sign = ['-']) ∧ ds ≠ [] ∧ Digits ds

/-- `[ frac ]` -/
def OptFrac (t : List Char) : Prop := t = [] ∨ ∃ ds, t = '.' :: ds ∧ ds ≠ [] ∧ Digits ds

theorem num_exp : ∀ {t : List Char}, numFrom .exp t = true ↔ Digits t
  | [] => by simp [numFrom, NumState.final, Digits]
  | c :: cs => by
    rw [Digits.cons, ← num_exp (t := cs), numFrom]
    by_cases h : isDigitChar c = true <;> simp [numStep, h]

theorem num_esign : ∀ {t : List Char}, numFrom .esign t = true ↔ t ≠ [] ∧ Digits t
  | [] => by simp [numFrom, NumState.final]
  | c :: cs => by
    rw [Digits.cons, ← num_exp (t := cs), numFrom]
    by_cases h : isDigitChar c = true <;> simp [numStep, h]

theorem num_e {t : List Char} : numFrom .e t = true ↔
    ∃ sign ds, t = sign ++ ds ∧ (sign = [] ∨ sign = ['+'] ∨ sign = ['-']) ∧ ds ≠ [] ∧ Digits ds := by
  cases t with
  | nil =>
    simp only [numFrom, NumState.final, Bool.false_eq_true, false_iff]
    rintro ⟨sign, ds, h, -, hne, -⟩
    exact hne (List.append_eq_nil_iff.1 h.symm).2
  | cons c cs =>
    rw [numFrom]
    constructor
    · intro h
      by_cases hs : c = '+' ∨ c = '-'
      · simp only [numStep, hs, if_true] at h
        obtain ⟨h1, h2⟩ := num_esign.1 h
        rcases hs with rfl | rfl
        · exact ⟨['+'], cs, rfl, .inr (.inl rfl), h1, h2⟩
        · exact ⟨['-'], cs, rfl, .inr (.inr rfl), h1, h2⟩
      · by_cases hd : isDigitChar c = true
        · simp only [numStep, hs, if_false, hd, if_true] at h
          exact ⟨[], c :: cs, rfl, .inl rfl, by simp, Digits.cons.2 ⟨hd, num_exp.1 h⟩⟩
        · simp [numStep, hs, hd] at h
    · rintro ⟨sign, ds, e, hs, hne, hd⟩
      rcases hs with rfl | rfl | rfl
      · simp only [List.nil_append] at e
        subst e
        obtain ⟨h1, h2⟩ := Digits.cons.1 hd
        have : ¬ (c = '+' ∨ c = '-') := by
          rintro (rfl | rfl) <;> exact absurd h1 (by decide)
        simp only [numStep, this, if_false, h1, if_true]
        exact num_exp.2 h2
      all_goals
        obtain ⟨rfl, rfl⟩ := List.cons.inj e
        simp only [numStep, true_or, or_true, if_true]
        exact num_esign.2 ⟨hne, hd⟩

theorem e_not_digit {c : Char} (h : c = 'e' ∨ c = 'E') : isDigitChar c = false ∧ c ≠ '.' := by
  rcases h with rfl | rfl <;> decide

theorem optExp_cons {c : Char} {cs : List Char} : OptExp (c :: cs) ↔ (c = 'e' ∨ c = 'E') ∧ numFrom .e cs = true := by
  rw [num_e]
  constructor
  · rintro (h | ⟨e, sign, ds, h, he, hs, hne, hd⟩)
    · cases h
    · obtain ⟨rfl, rfl⟩ := List.cons.inj h
      exact ⟨he, sign, ds, rfl, hs, hne, hd⟩
  · rintro ⟨he, sign, ds, rfl, hs, hne, hd⟩
    exact .inr ⟨c, sign, ds, rfl, he, hs, hne, hd⟩

theorem num_frac : ∀ {t : List Char}, numFrom .frac t = true ↔ ∃ ds x, t = ds ++ x ∧ Digits ds ∧ OptExp x
  | [] => by
    simp only [numFrom, NumState.final, true_iff]
    exact ⟨[], [], rfl, by simp [Digits], .inl rfl⟩
  | c :: cs => by
    have ih := num_frac (t := cs)
    rw [numFrom]
    constructor
    · intro h
      by_cases hd : isDigitChar c = true
      · simp only [numStep, hd, if_true] at h
        obtain ⟨ds, x, rfl, h1, h2⟩ := ih.1 h
        exact ⟨c :: ds, x, rfl, Digits.cons.2 ⟨hd, h1⟩, h2⟩
      · by_cases he : c = 'e' ∨ c = 'E'
        · simp only [numStep, hd, he, if_true] at h
          exact ⟨[], c :: cs, rfl, by simp [Digits], optExp_cons.2 ⟨he, h⟩⟩
        · simp [numStep, hd, he] at h
    · rintro ⟨ds, x, e, hd, hx⟩
      cases ds with
      | nil =>
        simp only [List.nil_append] at e
        subst e
        obtain ⟨he, h⟩ := optExp_cons.1 hx
        simp only [numStep, (e_not_digit he).1, Bool.false_eq_true, if_false, he, if_true]
        exact h
      | cons d ds =>
        obtain ⟨rfl, rfl⟩ := List.cons.inj e
        obtain ⟨h1, h2⟩ := Digits.cons.1 hd
        simp only [numStep, h1, if_true]
        exact ih.2 ⟨ds, x, rfl, h2, hx⟩

theorem num_dot {t : List Char} : numFrom .dot t = true ↔
    ∃ ds x, t = ds ++ x ∧ ds ≠ [] ∧ Digits ds ∧ OptExp x := by
  cases t with
  | nil =>
    simp only [numFrom, NumState.final, Bool.false_eq_true, false_iff]
    rintro ⟨ds, x, h, hne, -⟩
    exact hne (List.append_eq_nil_iff.1 h.symm).1
  | cons c cs =>
    rw [numFrom]
    constructor
    · intro h
      by_cases hd : isDigitChar c = true
      · simp only [numStep, hd, if_true] at h
        obtain ⟨ds, x, rfl, h1, h2⟩ := num_frac.1 h
        exact ⟨c :: ds, x, rfl, by simp, Digits.cons.2 ⟨hd, h1⟩, h2⟩
      · simp [numStep, hd] at h
    · rintro ⟨ds, x, e, hne, hd, hx⟩
      cases ds with
      | nil => exact absurd rfl hne
      | cons d ds =>
        obtain ⟨rfl, rfl⟩ := List.cons.inj e
        obtain ⟨h1, h2⟩ := Digits.cons.1 hd
        simp only [numStep, h1, if_true]
        exact num_frac.2 ⟨ds, x, rfl, h2, hx⟩

theorem num_zero {t : List Char} : numFrom .zero t = true ↔ ∃ f x, t = f ++ x ∧ OptFrac f ∧ OptExp x := by
  cases t with
  | nil =>
    simp only [numFrom, NumState.final, true_iff]
    exact ⟨[], [], rfl, .inl rfl, .inl rfl⟩
  | cons c cs =>
    rw [numFrom]
    constructor
    · intro h
      by_cases hd : c = '.'
      · simp only [numStep, hd, if_true] at h
        obtain ⟨ds, x, rfl, h0, h1, h2⟩ := num_dot.1 h
        exact ⟨c :: ds, x, rfl, .inr ⟨ds, by rw [hd], h0, h1⟩, h2⟩
      · by_cases he : c = 'e' ∨ c = 'E'
        · simp only [numStep, hd, he, if_true, if_false] at h
          exact ⟨[], c :: cs, rfl, .inl rfl, optExp_cons.2 ⟨he, h⟩⟩
        · simp [numStep, hd, he] at h
    · rintro ⟨f, x, e, hf, hx⟩
      rcases hf with rfl | ⟨ds, rfl, hne, hd⟩
      · simp only [List.nil_append] at e
        subst e
        obtain ⟨he, h⟩ := optExp_cons.1 hx
        simp only [numStep, (e_not_digit he).2, if_false, he, if_true]
        exact h
      · obtain ⟨rfl, rfl⟩ := List.cons.inj e
        simp only [numStep, if_true]
        exact num_dot.2 ⟨ds, x, rfl, hne, hd, hx⟩

theorem num_int : ∀ {t : List Char}, numFrom .int t = true ↔
    ∃ ds f x, t = ds ++ (f ++ x) ∧ Digits ds ∧ OptFrac f ∧ OptExp x
  | [] => by
    simp only [numFrom, NumState.final, true_iff]
    exact ⟨[], [], [], rfl, by simp [Digits], .inl rfl, .inl rfl⟩
  | c :: cs => by
    have ih := num_int (t := cs)
    have iz := num_zero (t := c :: cs)
    rw [numFrom]
    constructor
    · intro h
      by_cases hd : isDigitChar c = true
      · simp only [numStep, hd, if_true] at h
        obtain ⟨ds, f, x, rfl, h1, h2⟩ := ih.1 h
        exact ⟨c :: ds, f, x, rfl, Digits.cons.2 ⟨hd, h1⟩, h2⟩
      · have : numFrom .zero (c :: cs) = true := by
          rw [numFrom]
          simpa [numStep, hd] using h
        obtain ⟨f, x, e, hf, hx⟩ := iz.1 this
        exact ⟨[], f, x, e, by simp [Digits], hf, hx⟩
    · rintro ⟨ds, f, x, e, hd, hf, hx⟩
      cases ds with
      | nil =>
        have h := iz.2 ⟨f, x, e, hf, hx⟩
        rw [numFrom] at h
        have hnd : isDigitChar c = false := by
          simp only [List.nil_append] at e
          rcases hf with rfl | ⟨ds, rfl, -, -⟩
          · simp only [List.nil_append] at e
            subst e
            exact (e_not_digit (optExp_cons.1 hx).1).1
          · obtain ⟨rfl, -⟩ := List.cons.inj e
            decide
        simpa [numStep, hnd] using h
      | cons d ds =>
        obtain ⟨rfl, rfl⟩ := List.cons.inj e
        obtain ⟨h1, h2⟩ := Digits.cons.1 hd
        simp only [numStep, h1, if_true]
        exact ih.2 ⟨ds, f, x, rfl, h2, hf, hx⟩

/-- `int` -/
def IntPart (t : List Char) : Prop := t = ['0'] ∨ ∃ d ds, t = d :: ds ∧ '1' ≤ d ∧ d ≤ '9' ∧ Digits ds

theorem pos_digit {d : Char} : ('1' ≤ d ∧ d ≤ '9') ↔ isDigitChar d = true ∧ d ≠ '0' := by
  simp only [isDigitChar_iff, Char.le_def, ne_eq, Char.ext_iff, UInt32.le_iff_toNat_le, ← UInt32.toNat_inj]
  have e0 : '0'.val.toNat = 48 := rfl
  have e1 : '1'.val.toNat = 49 := rfl
  have e9 : '9'.val.toNat = 57 := rfl
  omega

theorem num_neg {t : List Char} : numFrom .neg t = true ↔
    ∃ i f x, t = i ++ (f ++ x) ∧ IntPart i ∧ OptFrac f ∧ OptExp x := by
  cases t with
  | nil =>
    simp only [numFrom, NumState.final, Bool.false_eq_true, false_iff]
    rintro ⟨i, f, x, h, hi, -⟩
    rcases hi with rfl | ⟨d, ds, rfl, -⟩ <;> simp at h
  | cons c cs =>
    rw [numFrom]
    constructor
    · intro h
      by_cases h0 : c = '0'
      · simp only [numStep, h0, if_true] at h
        obtain ⟨f, x, rfl, hf, hx⟩ := num_zero.1 h
        exact ⟨['0'], f, x, by rw [h0]; rfl, .inl rfl, hf, hx⟩
      · by_cases hd : isDigitChar c = true
        · simp only [numStep, h0, hd, if_true, if_false] at h
          obtain ⟨ds, f, x, rfl, h1, hf, hx⟩ := num_int.1 h
          obtain ⟨h2, h3⟩ := pos_digit.2 ⟨hd, h0⟩
          exact ⟨c :: ds, f, x, rfl, .inr ⟨c, ds, rfl, h2, h3, h1⟩, hf, hx⟩
        · simp [numStep, h0, hd] at h
    · rintro ⟨i, f, x, e, hi, hf, hx⟩
      rcases hi with rfl | ⟨d, ds, rfl, h2, h3, hd⟩
      · obtain ⟨rfl, rfl⟩ := List.cons.inj e
        simp only [numStep, if_true]
        exact num_zero.2 ⟨f, x, rfl, hf, hx⟩
      · obtain ⟨rfl, rfl⟩ := List.cons.inj e
        obtain ⟨h4, h5⟩ := pos_digit.1 ⟨h2, h3⟩
        simp only [numStep, h4, h5, if_true, if_false]
        exact num_int.2 ⟨ds, f, x, rfl, hd, hf, hx⟩

/-- The state machine accepts exactly the numbers of RFC 8259. -/
theorem isNumLit_iff {t : List Char} : isNumLit t = true ↔ Number t := by
  have key : Number t ↔ (∃ i f x, t = i ++ (f ++ x) ∧ IntPart i ∧ OptFrac f ∧ OptExp x) ∨
      ∃ r, t = '-' :: r ∧ ∃ i f x, r = i ++ (f ++ x) ∧ IntPart i ∧ OptFrac f ∧ OptExp x := by
    constructor
    · rintro ⟨m, i, f, x, hm, hi, hf, hx⟩
      rcases hm with rfl | rfl
      · exact .inl ⟨i, f, x, by simp, hi, hf, hx⟩
      · exact .inr ⟨i ++ (f ++ x), by simp, i, f, x, rfl, hi, hf, hx⟩
    · rintro (⟨i, f, x, rfl, hi, hf, hx⟩ | ⟨r, rfl, i, f, x, rfl, hi, hf, hx⟩)
      · have := Number.mk [] i f x (.inl rfl) hi hf hx
        simpa using this
      · have := Number.mk ['-'] i f x (.inr rfl) hi hf hx
        simpa using this
  rw [key, ← num_neg]
  unfold isNumLit
  cases t with
  | nil => simp [numFrom, NumState.final]
  | cons c cs =>
    by_cases hm : c = '-'
    · subst hm
      rw [numFrom]
      simp only [numStep, if_true, List.cons.injEq, true_and]
      rw [num_neg]
      constructor
      · intro h; exact .inr ⟨cs, rfl, h⟩
      · rintro (h | ⟨r, rfl, h⟩)
        · simp [numFrom, numStep, isDigitChar] at h
        · exact h
    · have e : numStep .start c = numStep .neg c := by simp [numStep, hm]
      rw [numFrom, e, ← numFrom]
      constructor
      · exact .inl
      · rintro (h | ⟨r, e, -⟩)
        · exact h
        · exact absurd (List.cons.inj e).1 hm

theorem NumLit.number (l : NumLit) : Number l.chars := isNumLit_iff.1 l.valid

end Verif
