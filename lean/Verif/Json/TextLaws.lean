import Verif.Json.NumberLaws
import Verif.Json.StringLaws

/-!
# Reading a text is what RFC 8259 says, and what is written is in the grammar
-/

namespace Verif.JText
open JsonText

/-! ## White space -/

theorem isSpace_iff {c : Char} : isSpace c = true ↔ c = ' ' ∨ c = '\t' ∨ c = '\n' ∨ c = '\r' := by
  simp only [isSpace, decide_eq_true_eq]
  constructor <;> (rintro (h | h | h | h) <;> simp [h])

theorem Ws.cons {c : Char} {w : List Char} : Ws (c :: w) ↔ isSpace c = true ∧ Ws w := by
  simp [Ws, isSpace_iff]

theorem skipWs_append : ∀ {w : List Char} (t : List Char), Ws w → skipWs (w ++ t) = skipWs t
  | [], t, _ => rfl
  | c :: w, t, h => by
    obtain ⟨h1, h2⟩ := Ws.cons.1 h
    simp [skipWs, h1, skipWs_append t h2]

/-- The text does not begin with white space. -/
def NoWs : List Char → Prop
  | [] => True
  | c :: _ => isSpace c = false

theorem skipWs_of_noWs : ∀ {t : List Char}, NoWs t → skipWs t = t
  | [], _ => rfl
  | c :: t, h => by
    have h : isSpace c = false := h
    simp [skipWs, h]

theorem skipWs_split : ∀ (t : List Char), ∃ w, Ws w ∧ t = w ++ skipWs t
  | [] => ⟨[], by simp [Ws], rfl⟩
  | c :: t => by
    by_cases h : isSpace c = true
    · obtain ⟨w, hw, e⟩ := skipWs_split t
      refine ⟨c :: w, Ws.cons.2 ⟨h, hw⟩, ?_⟩
      simp only [skipWs, h, if_true, List.cons_append]
      rw [← e]
    · exact ⟨[], by simp [Ws], by simp [skipWs, h]⟩

/-! ## Numbers in their context -/

theorem numFrom_chars : ∀ {t : List Char} {s : NumState}, numFrom s t = true → ∀ c ∈ t, isNumChar c = true
  | [], _, _, c, hc => by cases hc
  | d :: t, s, h, c, hc => by
    rw [numFrom] at h
    cases hs : numStep s d with
    | none => rw [hs] at h; cases h
    | some s' =>
      rw [hs] at h
      rcases List.mem_cons.1 hc with rfl | hc
      · unfold isNumChar
        clear h
        cases s <;> simp only [numStep] at hs <;> (repeat' split at hs) <;> cases hs <;> rename_i h <;> first
          | (simp [h]; done)
          | (subst h; decide)
          | (rcases h with rfl | rfl <;> decide)
      · exact numFrom_chars h c hc

/-- The text after a value: it does not go on like a number. -/
def NoNum : List Char → Prop
  | [] => True
  | c :: _ => isNumChar c = false

theorem takeWhile_num {l rest : List Char} (hl : ∀ c ∈ l, isNumChar c = true) (hr : NoNum rest) :
    (l ++ rest).takeWhile isNumChar = l ∧ (l ++ rest).dropWhile isNumChar = rest := by
  induction l with
  | nil =>
    cases rest with
    | nil => exact ⟨rfl, rfl⟩
    | cons c r =>
      have hr : isNumChar c = false := hr
      simp [hr]
  | cons c l ih =>
    have hc : isNumChar c = true := hl c (.head _)
    obtain ⟨h1, h2⟩ := ih fun d hd => hl d (.tail _ hd)
    simp [hc, h1, h2]

/-! ## Completeness -/

/-- A value begins neither with white space nor with a closing bracket. -/
theorem value_head {j : Json} {t : List Char} (h : Value j t) :
    ∃ c r, t = c :: r ∧ isSpace c = false ∧ c ≠ ']' ∧ c ≠ '}' := by
  cases h with
  | null => exact ⟨_, _, rfl, by decide, by decide, by decide⟩
  | true => exact ⟨_, _, rfl, by decide, by decide, by decide⟩
  | false => exact ⟨_, _, rfl, by decide, by decide, by decide⟩
  | @num lit hn =>
    have hv := lit.valid
    cases hc : lit.chars with
    | nil => rw [hc] at hv; simp [isNumLit, numFrom, NumState.final] at hv
    | cons c r =>
      rw [hc] at hv
      have h := numFrom_chars hv c (.head _)
      refine ⟨c, r, rfl, ?_, ?_, ?_⟩
      · rw [← Bool.not_eq_true, isSpace_iff]
        rintro (rfl | rfl | rfl | rfl) <;> revert h <;> decide
      · rintro rfl; revert h; decide
      · rintro rfl; revert h; decide
  | str hs => cases hs; exact ⟨_, _, rfl, by decide, by decide, by decide⟩
  | arr0 _ => exact ⟨_, _, rfl, by decide, by decide, by decide⟩
  | arr _ => exact ⟨_, _, rfl, by decide, by decide, by decide⟩
  | obj0 _ => exact ⟨_, _, rfl, by decide, by decide, by decide⟩
  | obj _ => exact ⟨_, _, rfl, by decide, by decide, by decide⟩

theorem value_noWs {j : Json} {t : List Char} (h : Value j t) (rest : List Char) : NoWs (t ++ rest) := by
  obtain ⟨c, r, rfl, hc, -⟩ := value_head h
  exact hc

theorem noNum_ws_cons {w : List Char} {c : Char} {r : List Char} (hw : Ws w) (hc : isNumChar c = false) :
    NoNum (w ++ c :: r) := by
  cases w with
  | nil => exact hc
  | cons d w =>
    obtain ⟨h, -⟩ := Ws.cons.1 hw
    rw [isSpace_iff] at h
    show isNumChar d = false
    rcases h with rfl | rfl | rfl | rfl <;> decide

theorem noNum_ws {w : List Char} (hw : Ws w) : NoNum w := by
  cases w with
  | nil => trivial
  | cons d w =>
    obtain ⟨h, -⟩ := Ws.cons.1 hw
    rw [isSpace_iff] at h
    show isNumChar d = false
    rcases h with rfl | rfl | rfl | rfl <;> decide

/-- The text of the elements of an array is not white space followed by a closing bracket. -/
theorem elems_head {js : List Json} {t : List Char} (h : Elems js t) (r : List Char) :
    ∃ c r', skipWs (t ++ r) = c :: r' ∧ c ≠ ']' := by
  cases h with
  | one hw hv hw' =>
    obtain ⟨c, r', rfl, hc, h1, -⟩ := value_head hv
    refine ⟨c, ?_, ?_, h1⟩
    rotate_left
    · rw [List.append_assoc, skipWs_append _ hw]
      simp only [List.cons_append]
      rw [skipWs, if_neg (by simp [hc])]
  | cons hw hv hw' _ =>
    obtain ⟨c, r', rfl, hc, h1, -⟩ := value_head hv
    refine ⟨c, ?_, ?_, h1⟩
    rotate_left
    · rw [List.append_assoc, skipWs_append _ hw]
      simp only [List.cons_append]
      rw [skipWs, if_neg (by simp [hc])]

theorem str_head {s : String} {t : List Char} (h : Str s t) : ∃ r, t = '"' :: r := by
  cases h; exact ⟨_, rfl⟩

theorem members_head {ms : List (String × Json)} {t : List Char} (h : Members ms t) (r : List Char) :
    ∃ c r', skipWs (t ++ r) = c :: r' ∧ c ≠ '}' := by
  cases h with
  | one hw hk _ _ _ _ =>
    obtain ⟨k', rfl⟩ := str_head hk
    refine ⟨'"', ?_, ?_, by decide⟩
    rotate_left
    · rw [List.append_assoc, skipWs_append _ hw]
      simp only [List.cons_append]
      rw [skipWs, if_neg (by decide)]
  | cons hw hk _ _ _ _ _ =>
    obtain ⟨k', rfl⟩ := str_head hk
    refine ⟨'"', ?_, ?_, by decide⟩
    rotate_left
    · rw [List.append_assoc, skipWs_append _ hw]
      simp only [List.cons_append]
      rw [skipWs, if_neg (by decide)]

theorem number_first {c : Char} (h : isNumChar c = true) :
    c ≠ 'n' ∧ c ≠ 't' ∧ c ≠ 'f' ∧ c ≠ '"' ∧ c ≠ '[' ∧ c ≠ '{' := by
  refine ⟨?_, ?_, ?_, ?_, ?_, ?_⟩ <;> (rintro rfl; revert h; decide)

mutual
/-- Every value of the grammar is read. -/
theorem pValue_complete : ∀ {j : Json} {t : List Char}, Value j t → ∀ (f : Nat) (rest : List Char),
    2 * t.length ≤ f → NoNum rest → pValue f (t ++ rest) = some (j, rest)
  | _, _, .null, f, rest, hf, _ => by
    simp only [List.length_cons, List.length_nil] at hf
    obtain ⟨f, rfl⟩ : ∃ g, f = g + 1 := ⟨f - 1, by omega⟩
    simp [pValue]
  | _, _, .true, f, rest, hf, _ => by
    simp only [List.length_cons, List.length_nil] at hf
    obtain ⟨f, rfl⟩ : ∃ g, f = g + 1 := ⟨f - 1, by omega⟩
    simp [pValue]
  | _, _, .false, f, rest, hf, _ => by
    simp only [List.length_cons, List.length_nil] at hf
    obtain ⟨f, rfl⟩ : ∃ g, f = g + 1 := ⟨f - 1, by omega⟩
    simp [pValue]
  | _, _, .num (lit := lit) hn, f, rest, hf, hr => by
    obtain ⟨chars, hv⟩ := lit
    cases chars with
    | nil => simp [isNumLit, numFrom, NumState.final] at hv
    | cons c cs =>
      have hall := numFrom_chars hv
      obtain ⟨h1, h2⟩ := takeWhile_num hall hr
      obtain ⟨n1, n2, n3, n4, n5, n6⟩ := number_first (hall c (.head _))
      simp only [List.length_cons] at hf
      obtain ⟨f, rfl⟩ : ∃ g, f = g + 1 := ⟨f - 1, by omega⟩
      simp only [List.cons_append] at h1 h2 ⊢
      unfold pValue
      simp only [n1, n2, n3, n4, n5, n6, if_false, h1, h2, hv, dif_pos]
  | _, _, .str (t := t) hs, f, rest, hf, _ => by
    obtain ⟨t', rfl, hp⟩ := pString_complete hs rest
    simp only [List.length_cons] at hf
    obtain ⟨f, rfl⟩ : ∃ g, f = g + 1 := ⟨f - 1, by omega⟩
    simp [pValue, hp]
  | _, _, .arr0 (w := w) hw, f, rest, hf, _ => by
    simp only [List.length_cons] at hf
    obtain ⟨f, rfl⟩ : ∃ g, f = g + 1 := ⟨f - 1, by omega⟩
    have : skipWs (w ++ ']' :: rest) = ']' :: rest := by
      rw [skipWs_append _ hw, skipWs_of_noWs]; exact (by decide : isSpace ']' = false)
    simp [pValue, this]
  | _, _, .arr (t := t) he, f, rest, hf, _ => by
    simp only [List.length_cons, List.length_append, List.length_nil] at hf
    obtain ⟨f, rfl⟩ : ∃ g, f = g + 1 := ⟨f - 1, by omega⟩
    obtain ⟨c, r', e, hc⟩ := elems_head he (']' :: rest)
    have ih := pElems_complete he f rest (by omega)
    simp only [List.cons_append, List.append_assoc, List.nil_append]
    unfold pValue
    simp [e, hc, ih]
  | _, _, .obj0 (w := w) hw, f, rest, hf, _ => by
    simp only [List.length_cons] at hf
    obtain ⟨f, rfl⟩ : ∃ g, f = g + 1 := ⟨f - 1, by omega⟩
    have : skipWs (w ++ '}' :: rest) = '}' :: rest := by
      rw [skipWs_append _ hw, skipWs_of_noWs]; exact (by decide : isSpace '}' = false)
    simp [pValue, this]
  | _, _, .obj (t := t) he, f, rest, hf, _ => by
    simp only [List.length_cons, List.length_append, List.length_nil] at hf
    obtain ⟨f, rfl⟩ : ∃ g, f = g + 1 := ⟨f - 1, by omega⟩
    obtain ⟨c, r', e, hc⟩ := members_head he ('}' :: rest)
    have ih := pMembers_complete he f rest (by omega)
    simp only [List.cons_append, List.append_assoc, List.nil_append]
    unfold pValue
    simp [e, hc, ih]
/-- Every sequence of elements of the grammar is read. -/
theorem pElems_complete : ∀ {js : List Json} {t : List Char}, Elems js t → ∀ (f : Nat) (rest : List Char),
    2 * t.length + 1 ≤ f → pElems f (t ++ ']' :: rest) = some (js, rest)
  | _, _, .one (w := w) (w' := w') (t := t) hw hv hw', f, rest, hf => by
    simp only [List.length_append] at hf
    obtain ⟨f, rfl⟩ : ∃ g, f = g + 1 := ⟨f - 1, by omega⟩
    have h := pValue_complete hv f (w' ++ ']' :: rest) (by omega) (noNum_ws_cons hw' (by decide))
    have e : skipWs (w ++ (t ++ w') ++ ']' :: rest) = t ++ (w' ++ ']' :: rest) := by
      rw [List.append_assoc, skipWs_append _ hw, List.append_assoc, skipWs_of_noWs (value_noWs hv _)]
    have e' : skipWs (w' ++ ']' :: rest) = ']' :: rest := by
      rw [skipWs_append _ hw', skipWs_of_noWs]; exact (by decide : isSpace ']' = false)
    unfold pElems
    simp only [e, h, e', if_true, show (']' : Char) ≠ ',' by decide, if_false]
  | _, _, .cons (w := w) (w' := w') (t := t) (ts := ts) hw hv hw' hes, f, rest, hf => by
    simp only [List.length_append, List.length_cons] at hf
    obtain ⟨f, rfl⟩ : ∃ g, f = g + 1 := ⟨f - 1, by omega⟩
    have h := pValue_complete hv f (w' ++ ',' :: (ts ++ ']' :: rest)) (by omega) (noNum_ws_cons hw' (by decide))
    have ih := pElems_complete hes f rest (by omega)
    have e : skipWs (w ++ (t ++ (w' ++ ',' :: ts)) ++ ']' :: rest) = t ++ (w' ++ ',' :: (ts ++ ']' :: rest)) := by
      rw [List.append_assoc, skipWs_append _ hw, List.append_assoc, List.append_assoc,
        skipWs_of_noWs (value_noWs hv _)]
      rfl
    have e' : skipWs (w' ++ ',' :: (ts ++ ']' :: rest)) = ',' :: (ts ++ ']' :: rest) := by
      rw [skipWs_append _ hw', skipWs_of_noWs]; exact (by decide : isSpace ',' = false)
    unfold pElems
    simp only [e, h, e', if_true, ih, Option.map_some]
/-- Every sequence of members of the grammar is read. -/
theorem pMembers_complete : ∀ {ms : List (String × Json)} {t : List Char}, Members ms t →
    ∀ (f : Nat) (rest : List Char), 2 * t.length + 1 ≤ f → pMembers f (t ++ '}' :: rest) = some (ms, rest)
  | _, _, .one (w₁ := w₁) (w₂ := w₂) (w₃ := w₃) (w₄ := w₄) (k := k) (t := t) h1 hk h2 h3 hv h4, f, rest, hf => by
    simp only [List.length_append, List.length_cons] at hf
    obtain ⟨f, rfl⟩ : ∃ g, f = g + 1 := ⟨f - 1, by omega⟩
    have h := pValue_complete hv f (w₄ ++ '}' :: rest) (by omega) (noNum_ws_cons h4 (by decide))
    obtain ⟨k', rfl, hp⟩ := pString_complete hk (w₂ ++ ':' :: (w₃ ++ (t ++ (w₄ ++ '}' :: rest))))
    have e : skipWs (w₁ ++ ('"' :: k' ++ (w₂ ++ ':' :: (w₃ ++ (t ++ w₄)))) ++ '}' :: rest) =
        '"' :: (k' ++ (w₂ ++ ':' :: (w₃ ++ (t ++ (w₄ ++ '}' :: rest))))) := by
      rw [List.append_assoc, skipWs_append _ h1, skipWs_of_noWs]
      · simp
      · exact (by decide : isSpace '"' = false)
    have e2 : skipWs (w₂ ++ ':' :: (w₃ ++ (t ++ (w₄ ++ '}' :: rest)))) = ':' :: (w₃ ++ (t ++ (w₄ ++ '}' :: rest))) := by
      rw [skipWs_append _ h2, skipWs_of_noWs]; exact (by decide : isSpace ':' = false)
    have e3 : skipWs (w₃ ++ (t ++ (w₄ ++ '}' :: rest))) = t ++ (w₄ ++ '}' :: rest) := by
      rw [skipWs_append _ h3, skipWs_of_noWs (value_noWs hv _)]
    have e4 : skipWs (w₄ ++ '}' :: rest) = '}' :: rest := by
      rw [skipWs_append _ h4, skipWs_of_noWs]; exact (by decide : isSpace '}' = false)
    unfold pMembers
    simp only [e, hp, e2, e3, h, e4, if_true, show ('}' : Char) ≠ ',' by decide, if_false]
  | _, _, .cons (w₁ := w₁) (w₂ := w₂) (w₃ := w₃) (w₄ := w₄) (k := k) (t := t) (ts := ts) h1 hk h2 h3 hv h4 hms,
      f, rest, hf => by
    simp only [List.length_append, List.length_cons] at hf
    obtain ⟨f, rfl⟩ : ∃ g, f = g + 1 := ⟨f - 1, by omega⟩
    have h := pValue_complete hv f (w₄ ++ ',' :: (ts ++ '}' :: rest)) (by omega) (noNum_ws_cons h4 (by decide))
    have ih := pMembers_complete hms f rest (by omega)
    obtain ⟨k', rfl, hp⟩ := pString_complete hk (w₂ ++ ':' :: (w₃ ++ (t ++ (w₄ ++ ',' :: (ts ++ '}' :: rest)))))
    have e : skipWs (w₁ ++ ('"' :: k' ++ (w₂ ++ ':' :: (w₃ ++ (t ++ (w₄ ++ ',' :: ts))))) ++ '}' :: rest) =
        '"' :: (k' ++ (w₂ ++ ':' :: (w₃ ++ (t ++ (w₄ ++ ',' :: (ts ++ '}' :: rest)))))) := by
      rw [List.append_assoc, skipWs_append _ h1, skipWs_of_noWs]
      · simp
      · exact (by decide : isSpace '"' = false)
    have e2 : skipWs (w₂ ++ ':' :: (w₃ ++ (t ++ (w₄ ++ ',' :: (ts ++ '}' :: rest))))) =
        ':' :: (w₃ ++ (t ++ (w₄ ++ ',' :: (ts ++ '}' :: rest)))) := by
      rw [skipWs_append _ h2, skipWs_of_noWs]; exact (by decide : isSpace ':' = false)
    have e3 : skipWs (w₃ ++ (t ++ (w₄ ++ ',' :: (ts ++ '}' :: rest)))) = t ++ (w₄ ++ ',' :: (ts ++ '}' :: rest)) := by
      rw [skipWs_append _ h3, skipWs_of_noWs (value_noWs hv _)]
    have e4 : skipWs (w₄ ++ ',' :: (ts ++ '}' :: rest)) = ',' :: (ts ++ '}' :: rest) := by
      rw [skipWs_append _ h4, skipWs_of_noWs]; exact (by decide : isSpace ',' = false)
    unfold pMembers
    simp only [e, hp, e2, e3, h, e4, if_true, ih, Option.map_some]
end

/-! ## Soundness -/

theorem skipWs_eq {t r : List Char} (h : skipWs t = r) : ∃ w, Ws w ∧ t = w ++ r := by
  obtain ⟨w, hw, e⟩ := skipWs_split t
  exact ⟨w, hw, by rw [e, h]⟩

mutual
/-- Only values of the grammar are read. -/
theorem pValue_sound : ∀ (f : Nat) (cs : List Char) (j : Json) (r : List Char), pValue f cs = some (j, r) →
    ∃ t, cs = t ++ r ∧ Value j t
  | 0, cs, j, r, h => by simp [pValue] at h
  | f + 1, [], j, r, h => by simp [pValue] at h
  | f + 1, c :: cs, j, r, h => by
    unfold pValue at h
    split at h
    · next hc =>
      subst hc
      split at h
      · cases h; exact ⟨_, rfl, .null⟩
      · cases h
    split at h
    · next hc =>
      subst hc
      split at h
      · cases h; exact ⟨_, rfl, .true⟩
      · cases h
    split at h
    · next hc =>
      subst hc
      split at h
      · cases h; exact ⟨_, rfl, .false⟩
      · cases h
    split at h
    · next hc =>
      subst hc
      rw [Option.map_eq_some_iff] at h
      obtain ⟨⟨s, r'⟩, hp, h⟩ := h
      cases h
      obtain ⟨t, e, hs⟩ := pString_sound hp
      exact ⟨t, e, .str hs⟩
    split at h
    · next hc =>
      subst hc
      split at h
      · next r' hw =>
        cases h
        obtain ⟨w, hw', rfl⟩ := skipWs_eq hw
        exact ⟨_, by simp, .arr0 hw'⟩
      · rw [Option.map_eq_some_iff] at h
        obtain ⟨⟨js, r'⟩, hp, h⟩ := h
        cases h
        obtain ⟨t, rfl, he⟩ := pElems_sound f _ _ _ hp
        exact ⟨_, by simp, .arr he⟩
    split at h
    · next hc =>
      subst hc
      split at h
      · next r' hw =>
        cases h
        obtain ⟨w, hw', rfl⟩ := skipWs_eq hw
        exact ⟨_, by simp, .obj0 hw'⟩
      · rw [Option.map_eq_some_iff] at h
        obtain ⟨⟨js, r'⟩, hp, h⟩ := h
        cases h
        obtain ⟨t, rfl, he⟩ := pMembers_sound f _ _ _ hp
        exact ⟨_, by simp, .obj he⟩
    split at h
    · next hn =>
      cases h
      exact ⟨_, List.takeWhile_append_dropWhile.symm, .num (isNumLit_iff.1 hn)⟩
    · cases h
/-- Only sequences of elements of the grammar are read. -/
theorem pElems_sound : ∀ (f : Nat) (cs : List Char) (js : List Json) (r : List Char),
    pElems f cs = some (js, r) → ∃ t, cs = t ++ ']' :: r ∧ Elems js t
  | 0, cs, j, r, h => by simp [pElems] at h
  | f + 1, cs, js, r, h => by
    unfold pElems at h
    split at h
    · cases h
    next v r₁ hv =>
    obtain ⟨t, e, hval⟩ := pValue_sound f _ _ _ hv
    obtain ⟨w, hw, rfl⟩ := skipWs_eq e
    split at h
    · cases h
    next c r₂ hr =>
    obtain ⟨w', hw', rfl⟩ := skipWs_eq hr
    split at h
    · next hc =>
      subst hc
      rw [Option.map_eq_some_iff] at h
      obtain ⟨⟨js', r'⟩, hp, h⟩ := h
      cases h
      obtain ⟨ts, rfl, hes⟩ := pElems_sound f _ _ _ hp
      exact ⟨_, by simp, .cons hw hval hw' hes⟩
    split at h
    · next hc =>
      subst hc
      cases h
      exact ⟨_, by simp, .one hw hval hw'⟩
    · cases h
/-- Only sequences of members of the grammar are read. -/
theorem pMembers_sound : ∀ (f : Nat) (cs : List Char) (ms : List (String × Json)) (r : List Char),
    pMembers f cs = some (ms, r) → ∃ t, cs = t ++ '}' :: r ∧ Members ms t
  | 0, cs, j, r, h => by simp [pMembers] at h
  | f + 1, cs, js, r, h => by
    unfold pMembers at h
    split at h
    · next r₀ h0 =>
      obtain ⟨w₁, h1, rfl⟩ := skipWs_eq h0
      split at h
      · cases h
      next k r₁ hk =>
      obtain ⟨tk, ek, hstr⟩ := pString_sound hk
      split at h
      · next r₂ h2 =>
        obtain ⟨w₂, hw2, rfl⟩ := skipWs_eq h2
        split at h
        · cases h
        next v r₃ hv =>
        obtain ⟨t, e, hval⟩ := pValue_sound f _ _ _ hv
        obtain ⟨w₃, h3, rfl⟩ := skipWs_eq e
        split at h
        · cases h
        next c r₄ hr =>
        obtain ⟨w₄, h4, rfl⟩ := skipWs_eq hr
        split at h
        · next hc =>
          subst hc
          rw [Option.map_eq_some_iff] at h
          obtain ⟨⟨ms', r'⟩, hp, h⟩ := h
          cases h
          obtain ⟨ts, rfl, hms⟩ := pMembers_sound f _ _ _ hp
          refine ⟨_, ?_, .cons h1 hstr hw2 h3 hval h4 hms⟩
          rw [ek]; simp
        split at h
        · next hc =>
          subst hc
          cases h
          refine ⟨_, ?_, .one h1 hstr hw2 h3 hval h4⟩
          rw [ek]; simp
        · cases h
      · cases h
    · cases h
end

/-- **The parser is RFC 8259**: it reads exactly the texts of the grammar, and as the grammar says. -/
theorem parse_iff {t : List Char} {j : Json} : parse t = some j ↔ Text j t := by
  constructor
  · intro h
    unfold parse at h
    split at h
    · cases h
    next j' r hv =>
    split at h
    · next hr =>
      cases h
      obtain ⟨v, e, hval⟩ := pValue_sound _ _ _ _ hv
      obtain ⟨w, hw, rfl⟩ := skipWs_eq e
      obtain ⟨w', hw', rfl⟩ := skipWs_eq hr
      rw [List.append_nil]
      exact .mk hw hval hw'
    · cases h
  · rintro ⟨hw, hv, hw'⟩
    next w w' t =>
    have h := pValue_complete hv (2 * (w ++ (t ++ w')).length + 2) w' (by simp; omega) (noNum_ws hw')
    unfold parse
    rw [skipWs_append _ hw, skipWs_of_noWs (value_noWs hv _), h]
    have : skipWs w' = [] := by
      have := skipWs_append [] hw'
      simpa [skipWs] using this
    simp [this]

/-- A text denotes at most one value. -/
theorem text_unique {t : List Char} {j j' : Json} (h : Text j t) (h' : Text j' t) : j = j' := by
  have := parse_iff.2 h
  rw [parse_iff.2 h'] at this
  exact (Option.some.inj this).symm

/-! ## What is written is in the grammar -/

theorem hexDigit_hex (n : Nat) (h : n < 16) : Hex (hexDigit n) n := by
  apply hex_of_hexVal
  have : ∀ n : Fin 16, hexVal (hexDigit n) = some n.val := by decide
  exact this ⟨n, h⟩

theorem u4_U4 (n : Nat) (h : n < 65536) : U4 (u4 n) n := by
  have := U4.mk (hexDigit_hex (n / 4096 % 16) (by omega)) (hexDigit_hex (n / 256 % 16) (by omega))
    (hexDigit_hex (n / 16 % 16) (by omega)) (hexDigit_hex (n % 16) (by omega))
  have e : ((n / 4096 % 16 * 16 + n / 256 % 16) * 16 + n / 16 % 16) * 16 + n % 16 = n := by omega
  rw [e] at this
  exact this

theorem char_not_surrogate (c : Char) : ¬ High c.toNat ∧ ¬ Low c.toNat := by
  have := c.valid
  unfold UInt32.isValidChar Nat.isValidChar at this
  have e : c.toNat = c.val.toNat := rfl
  unfold High Low
  omega

theorem escapeChar_body (html : Bool) (c : Char) {s t : List Char} (h : StrBody s t) :
    StrBody (c :: s) (escapeChar html c ++ t) := by
  have hu : c.toNat < 65536 → StrBody (c :: s) (u4 c.toNat ++ t) := by
    intro hlt
    have := StrBody.u4 (u4_U4 c.toNat hlt) (char_not_surrogate c).1 (char_not_surrogate c).2 h
    rwa [Char.ofNat_toNat] at this
  unfold escapeChar
  repeat' split
  · next hc => subst hc; exact .short (by decide) h
  · next hc => subst hc; exact .short (by decide) h
  · next hc => subst hc; exact .short (by decide) h
  · next hc => subst hc; exact .short (by decide) h
  · next hc => subst hc; exact .short (by decide) h
  · next hc => subst hc; exact .short (by decide) h
  · next hc => subst hc; exact .short (by decide) h
  · next hc => exact hu (by omega)
  · next hc => exact hu (by rcases hc.2 with rfl | rfl | rfl <;> decide)
  · next hc => exact hu (by rcases hc with rfl | rfl <;> decide)
  · next h1 h2 _ _ _ _ _ h3 _ _ => exact .raw (by omega) h1 h2 h

theorem escapeAll_body (html : Bool) : ∀ s : List Char, StrBody s (escapeAll html s)
  | [] => .nil
  | c :: s => escapeChar_body html c (escapeAll_body html s)

theorem quote_str (html : Bool) (s : String) : Str s (quote html s) := by
  have := Str.mk (escapeAll_body html s.toList)
  rwa [String.ofList_toList] at this

theorem newline_ws (pretty : Bool) (d : Nat) : Ws (newline pretty d) := by
  unfold newline
  split
  · intro c hc
    rcases List.mem_cons.1 hc with rfl | hc
    · simp
    · rw [List.mem_replicate] at hc
      exact .inl hc.2
  · simp [Ws]

theorem space_ws (pretty : Bool) : Ws (if pretty then [' '] else []) := by
  cases pretty <;> simp [Ws]

theorem nil_ws : Ws [] := by simp [Ws]

mutual
/-- What is written for a value is in the grammar and denotes the value. -/
theorem render_value (pretty html : Bool) (d : Nat) : ∀ m : Marked, Value m.erase (render pretty html d m)
  | .null => by simp only [Marked.erase, render]; exact .null
  | .bool true => by simp only [Marked.erase, render]; exact .true
  | .bool false => by simp only [Marked.erase, render]; exact .false
  | .num l => by simp only [Marked.erase, render]; exact .num l.number
  | .str s => by simp only [Marked.erase, render]; exact .str (quote_str html s)
  | .arr [] => by simp only [Marked.erase, render, eraseL]; exact .arr0 nil_ws
  | .arr (x :: xs) => by
    simp only [Marked.erase, render, eraseL]
    have h := renderL_elems pretty html (d + 1) xs (newline pretty d) (newline_ws _ _) _ _ _
      (newline_ws pretty (d + 1)) (render_value pretty html (d + 1) x)
    have := Value.arr h
    simpa [List.append_assoc] using this
  | .obj [] => by simp only [Marked.erase, render, eraseM]; exact .obj0 nil_ws
  | .obj ((k, x) :: xs) => by
    simp only [Marked.erase, render, eraseM, renderP]
    have h := renderM_members pretty html (d + 1) xs (newline pretty d) (newline_ws _ _) _ _ _ _ (k, x.erase)
      (newline_ws pretty (d + 1)) (quote_str html k) (space_ws pretty) (render_value pretty html (d + 1) x)
    have := Value.obj h
    simpa [List.append_assoc] using this
  | .custom m => by simp only [Marked.erase, render]; exact render_value pretty true d m
/-- The elements of an array, `t` being the first with white space `w` before it. -/
theorem renderL_elems (pretty html : Bool) (d : Nat) : ∀ (xs : List Marked) (w' : List Char), Ws w' →
    ∀ (w t : List Char) (j : Json), Ws w → Value j t →
    Elems (j :: eraseL xs) (w ++ (t ++ (renderL pretty html d xs ++ w')))
  | [], w', hw', w, t, j, hw, hv => by
    simp only [eraseL, renderL, List.nil_append]
    exact .one hw hv hw'
  | x :: xs, w', hw', w, t, j, hw, hv => by
    have ih := renderL_elems pretty html d xs w' hw' _ _ _ (newline_ws pretty d) (render_value pretty html d x)
    have := Elems.cons hw hv nil_ws ih
    simpa [eraseL, renderL, List.append_assoc] using this
/-- The members of an object. -/
theorem renderM_members (pretty html : Bool) (d : Nat) : ∀ (xs : List (String × Marked)) (w' : List Char), Ws w' →
    ∀ (w k w₃ t : List Char) (sj : String × Json), Ws w → Str sj.1 k → Ws w₃ → Value sj.2 t →
    Members (sj :: eraseM xs) (w ++ (k ++ ':' :: (w₃ ++ (t ++ (renderM pretty html d xs ++ w')))))
  | [], w', hw', w, k, w₃, t, (s, j), hw, hk, h3, hv => by
    simp only [eraseM, renderM, List.nil_append]
    exact .one hw hk nil_ws h3 hv hw'
  | (s', x) :: xs, w', hw', w, k, w₃, t, (s, j), hw, hk, h3, hv => by
    have ih := renderM_members pretty html d xs w' hw' _ _ _ _ (s', x.erase) (newline_ws pretty d)
      (quote_str html s') (space_ws pretty) (render_value pretty html d x)
    have := Members.cons hw hk nil_ws h3 hv nil_ws ih
    simpa [eraseM, renderM, renderP, List.append_assoc] using this
end

mutual
theorem erase_plain : ∀ j : Json, (plain j).erase = j
  | .null => by simp only [plain, Marked.erase]
  | .bool b => by simp only [plain, Marked.erase]
  | .num l => by simp only [plain, Marked.erase]
  | .str s => by simp only [plain, Marked.erase]
  | .arr xs => by simp only [plain, Marked.erase, eraseL_plainL xs]
  | .obj ms => by simp only [plain, Marked.erase, eraseM_plainM ms]
theorem eraseL_plainL : ∀ js : List Json, eraseL (plainL js) = js
  | [] => by simp only [plainL, eraseL]
  | j :: js => by simp only [plainL, eraseL, erase_plain j, eraseL_plainL js]
theorem eraseM_plainM : ∀ ms : List (String × Json), eraseM (plainM ms) = ms
  | [] => by simp only [plainM, eraseM]
  | (k, j) :: ms => by simp only [plainM, eraseM, erase_plain j, eraseM_plainM ms]
end

/-! ## Which characters are written -/

/-- The characters that are written whatever the strings of the document are. -/
def fixedChars : List Char := "{}[],:\"\\ubfnrtalse0123456789-+.eEabcdf".toList

theorem hexDigit_fixed (n : Nat) (h : n < 16) : hexDigit n ∈ fixedChars := by
  have : ∀ n : Fin 16, hexDigit n ∈ fixedChars := by decide
  exact this ⟨n, h⟩

theorem u4_fixed (n : Nat) : ∀ d ∈ u4 n, d ∈ fixedChars := by
  intro d hd
  simp only [u4, List.mem_cons, List.not_mem_nil, or_false] at hd
  rcases hd with rfl | rfl | rfl | rfl | rfl | rfl
  · decide
  · decide
  · exact hexDigit_fixed _ (by omega)
  · exact hexDigit_fixed _ (by omega)
  · exact hexDigit_fixed _ (by omega)
  · exact hexDigit_fixed _ (by omega)

theorem isDigitChar_mem {c : Char} (h : isDigitChar c = true) : c ∈ "0123456789".toList := by
  simp only [isDigitChar, Bool.and_eq_true, decide_eq_true_eq] at h
  have e : c = Char.ofNat c.toNat := (Char.ofNat_toNat c).symm
  have h1 : 48 ≤ c.toNat := h.1
  have h2 : c.toNat ≤ 57 := h.2
  have : ∀ n : Fin 10, Char.ofNat (48 + n.val) ∈ "0123456789".toList := by decide
  have := this ⟨c.toNat - 48, by omega⟩
  rw [e]
  simp only at this
  rwa [show 48 + (c.toNat - 48) = c.toNat by omega] at this

theorem isNumChar_fixed {c : Char} (h : isNumChar c = true) : c ∈ fixedChars := by
  simp only [isNumChar, Bool.or_eq_true, decide_eq_true_eq] at h
  rcases h with (((((h | rfl) | rfl) | rfl) | rfl) | rfl)
  · have := isDigitChar_mem h
    have sub : ∀ d ∈ "0123456789".toList, d ∈ fixedChars := by decide
    exact sub c this
  all_goals decide

/-- A character of an escaped string is fixed, or it is the character itself. -/
theorem escapeChar_chars (html : Bool) (c d : Char) (h : d ∈ escapeChar html c) :
    d ∈ fixedChars ∨ d = c ∧ 0x20 ≤ c.toNat ∧ (html = true → c ≠ '<' ∧ c ≠ '>' ∧ c ≠ '&') ∧
      c ≠ Char.ofNat 0x2028 ∧ c ≠ Char.ofNat 0x2029 := by
  unfold escapeChar at h
  repeat' split at h
  all_goals first
    | exact .inl (u4_fixed _ d h)
    | (simp only [List.mem_cons, List.not_mem_nil, or_false] at h; rcases h with rfl | rfl <;> exact .inl (by decide))
    | skip
  next h1 h2 h3 h4 h5 h6 h7 h8 h9 h10 =>
  simp only [List.mem_cons, List.not_mem_nil, or_false] at h
  subst h
  exact .inr ⟨rfl, by omega, fun hh => ⟨fun e => h9 ⟨hh, .inl e⟩, fun e => h9 ⟨hh, .inr (.inl e)⟩,
    fun e => h9 ⟨hh, .inr (.inr e)⟩⟩, fun e => h10 (.inl e), fun e => h10 (.inr e)⟩

/-- A property of characters that holds of all that is written outside white space. -/
structure Written (html : Bool) (P : Char → Prop) : Prop where
  fixed : ∀ c ∈ fixedChars, P c
  esc : ∀ c, ∀ d ∈ escapeChar html c, P d

theorem Written.strict {html : Bool} {P : Char → Prop} (w : Written html P) : Written true P := by
  refine ⟨w.fixed, fun c d hd => ?_⟩
  rcases escapeChar_chars true c d hd with h | ⟨rfl, h1, h2, h3⟩
  · exact w.fixed d h
  · obtain ⟨ha, hb, hc⟩ := h2 rfl
    refine w.esc d d ?_
    unfold escapeChar at hd ⊢
    simp only [ha, hb, hc, or_self, and_false, if_false] at hd ⊢
    exact hd

theorem escapeAll_written {html : Bool} {P : Char → Prop} (w : Written html P) :
    ∀ s : List Char, ∀ d ∈ escapeAll html s, P d
  | [], d, h => by cases h
  | c :: s, d, h => by
    rcases List.mem_append.1 h with h | h
    · exact w.esc c d h
    · exact escapeAll_written w s d h

theorem quote_written {html : Bool} {P : Char → Prop} (w : Written html P) (s : String) :
    ∀ d ∈ quote html s, P d := by
  intro d h
  simp only [quote, List.mem_cons, List.mem_append, List.not_mem_nil, or_false] at h
  rcases h with rfl | h | rfl
  · exact w.fixed _ (by decide)
  · exact escapeAll_written w _ d h
  · exact w.fixed _ (by decide)

theorem newline_written {pretty : Bool} {P : Char → Prop} (hp : pretty = true → P ' ' ∧ P '\n') (d : Nat) :
    ∀ c ∈ newline pretty d, P c := by
  intro c h
  unfold newline at h
  split at h
  · next e =>
    rcases List.mem_cons.1 h with rfl | h
    · exact (hp e).2
    · rw [(List.mem_replicate.1 h).2]; exact (hp e).1
  · cases h

mutual
theorem render_written {pretty html : Bool} {P : Char → Prop} (w : Written html P)
    (hp : pretty = true → P ' ' ∧ P '\n') (d : Nat) : ∀ m : Marked, ∀ c ∈ render pretty html d m, P c
  | .null, c, h => by
    simp only [render] at h
    exact w.fixed c ((by decide : ∀ c ∈ ['n', 'u', 'l', 'l'], c ∈ fixedChars) c h)
  | .bool true, c, h => by
    simp only [render] at h
    exact w.fixed c ((by decide : ∀ c ∈ ['t', 'r', 'u', 'e'], c ∈ fixedChars) c h)
  | .bool false, c, h => by
    simp only [render] at h
    exact w.fixed c ((by decide : ∀ c ∈ ['f', 'a', 'l', 's', 'e'], c ∈ fixedChars) c h)
  | .num l, c, h => by
    simp only [render] at h
    exact w.fixed c (isNumChar_fixed (numFrom_chars l.valid c h))
  | .str s, c, h => by
    simp only [render] at h
    exact quote_written w s c h
  | .arr [], c, h => by
    simp only [render] at h
    exact w.fixed c ((by decide : ∀ c ∈ ['[', ']'], c ∈ fixedChars) c h)
  | .arr (x :: xs), c, h => by
    simp only [render, List.mem_cons, List.mem_append, List.not_mem_nil, or_false] at h
    rcases h with rfl | (((h | h) | h) | h) | rfl
    · exact w.fixed _ (by decide)
    · exact newline_written hp _ c h
    · exact render_written w hp _ x c h
    · exact renderL_written w hp _ xs c h
    · exact newline_written hp _ c h
    · exact w.fixed _ (by decide)
  | .obj [], c, h => by
    simp only [render] at h
    exact w.fixed c ((by decide : ∀ c ∈ ['{', '}'], c ∈ fixedChars) c h)
  | .obj ((k, x) :: xs), c, h => by
    simp only [render, renderP, List.mem_cons, List.mem_append, List.not_mem_nil, or_false] at h
    rcases h with rfl | (((h | h | rfl | h | h) | h) | h) | rfl
    · exact w.fixed _ (by decide)
    · exact newline_written hp _ c h
    · exact quote_written w k c h
    · exact w.fixed _ (by decide)
    · split at h
      · next e => rw [List.mem_singleton.1 h]; exact (hp e).1
      · cases h
    · exact render_written w hp _ x c h
    · exact renderM_written w hp _ xs c h
    · exact newline_written hp _ c h
    · exact w.fixed _ (by decide)
  | .custom m, c, h => by
    simp only [render] at h
    exact render_written w.strict hp d m c h
theorem renderL_written {pretty html : Bool} {P : Char → Prop} (w : Written html P)
    (hp : pretty = true → P ' ' ∧ P '\n') (d : Nat) : ∀ xs : List Marked, ∀ c ∈ renderL pretty html d xs, P c
  | [], c, h => by simp only [renderL] at h; cases h
  | x :: xs, c, h => by
    simp only [renderL, List.mem_cons, List.mem_append] at h
    rcases h with rfl | (h | h) | h
    · exact w.fixed _ (by decide)
    · exact newline_written hp _ c h
    · exact render_written w hp _ x c h
    · exact renderL_written w hp _ xs c h
theorem renderM_written {pretty html : Bool} {P : Char → Prop} (w : Written html P)
    (hp : pretty = true → P ' ' ∧ P '\n') (d : Nat) :
    ∀ xs : List (String × Marked), ∀ c ∈ renderM pretty html d xs, P c
  | [], c, h => by simp only [renderM] at h; cases h
  | (k, x) :: xs, c, h => by
    simp only [renderM, renderP, List.mem_cons, List.mem_append] at h
    rcases h with rfl | (h | h | rfl | h | h) | h
    · exact w.fixed _ (by decide)
    · exact newline_written hp _ c h
    · exact quote_written w k c h
    · exact w.fixed _ (by decide)
    · split at h
      · next e => rw [List.mem_singleton.1 h]; exact (hp e).1
      · cases h
    · exact render_written w hp _ x c h
    · exact renderM_written w hp _ xs c h
end

/-- Without indentation no control character is written. -/
theorem render_one_line (html : Bool) (d : Nat) (m : Marked) : ∀ c ∈ render false html d m, 0x20 ≤ c.toNat := by
  refine render_written (P := fun c => 0x20 ≤ c.toNat) ⟨by decide, fun c e he => ?_⟩ (fun h => by cases h) d m
  rcases escapeChar_chars html c e he with h | ⟨rfl, h, -⟩
  · exact (by decide : ∀ c ∈ fixedChars, 0x20 ≤ c.toNat) e h
  · exact h

/-- With HTML escaping none of the characters with a meaning in HTML is written. -/
theorem render_html (pretty : Bool) (d : Nat) (m : Marked) : ∀ c ∈ render pretty true d m,
    c ≠ '<' ∧ c ≠ '>' ∧ c ≠ '&' := by
  refine render_written (P := fun c => c ≠ '<' ∧ c ≠ '>' ∧ c ≠ '&') ⟨by decide, fun c e he => ?_⟩ (fun _ => by decide) d m
  rcases escapeChar_chars true c e he with h | ⟨rfl, -, h, -⟩
  · exact (by decide : ∀ c ∈ fixedChars, c ≠ '<' ∧ c ≠ '>' ∧ c ≠ '&') e h
  · exact h rfl

/-- The line separators of JavaScript are never written. -/
theorem render_no_separators (pretty html : Bool) (d : Nat) (m : Marked) : ∀ c ∈ render pretty html d m,
    c ≠ Char.ofNat 0x2028 ∧ c ≠ Char.ofNat 0x2029 := by
  refine render_written (P := fun c => c ≠ Char.ofNat 0x2028 ∧ c ≠ Char.ofNat 0x2029)
    ⟨by decide, fun c e he => ?_⟩ (fun _ => by decide) d m
  rcases escapeChar_chars html c e he with h | ⟨rfl, -, -, h⟩
  · exact (by decide : ∀ c ∈ fixedChars, c ≠ Char.ofNat 0x2028 ∧ c ≠ Char.ofNat 0x2029) e h
  · exact h

end Verif.JText
