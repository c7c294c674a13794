import Verif.Spec.XmlText

/-!
# The reader accepts exactly the grammar

`Verif.XmlText.parse` yields a document for a text if and only if the text is that document in the grammar of
`Verif.Spec.XmlText`.
-/

namespace Verif.XmlText

open Xml (isChar)
open XmlGrammar

/-! ### Lists -/

theorem span_append {p : Char → Bool} {a b : List Char} (ha : ∀ c ∈ a, p c = true)
    (hb : ∀ c r, b = c :: r → p c = false) :
    (a ++ b).takeWhile p = a ∧ (a ++ b).dropWhile p = b := by
  induction a with
  | nil =>
    cases b with
    | nil => simp
    | cons c r => simp [hb c r rfl]
  | cons c a ih =>
    have := ih fun d hd => ha d (by simp [hd])
    simp [ha c (by simp), this]

theorem span_spec (p : Char → Bool) (cs : List Char) :
    cs = cs.takeWhile p ++ cs.dropWhile p ∧ (∀ c ∈ cs.takeWhile p, p c = true) ∧
      (∀ c r, cs.dropWhile p = c :: r → p c = false) := by
  induction cs with
  | nil => simp
  | cons c cs ih =>
    by_cases h : p c = true
    · simp only [List.takeWhile_cons_of_pos h, List.dropWhile_cons_of_pos h, List.cons_append]
      refine ⟨by rw [← ih.1], ?_, ih.2.2⟩
      intro d hd
      rcases List.mem_cons.1 hd with rfl | hd
      · exact h
      · exact ih.2.1 d hd
    · have h' : p c = false := by simpa using h
      simp only [List.takeWhile_cons, List.dropWhile_cons, h', Bool.false_eq_true, if_false, List.nil_append, true_and]
      refine ⟨by simp, ?_⟩
      rintro d r e
      simp only [List.cons.injEq] at e
      rw [← e.1]; exact h'

theorem isPrefixOf_iff {a b : List Char} : a.isPrefixOf b = true ↔ ∃ r, b = a ++ r := by
  rw [List.isPrefixOf_iff_prefix]
  exact ⟨fun ⟨r, h⟩ => ⟨r, h.symm⟩, fun ⟨r, h⟩ => ⟨r, h.symm⟩⟩

/-- `cutAt` finds the first occurrence. -/
theorem cutAt_iff {pat : List Char} (hp : pat ≠ []) : ∀ {cs a r : List Char},
    cutAt pat cs = some (a, r) ↔ cs = a ++ (pat ++ r) ∧ UpTo pat a
  | [], a, r => by
    simp only [cutAt]
    constructor
    · intro h; cases h
    · rintro ⟨h, -⟩
      have := congrArg List.length h
      have : 0 < pat.length := List.length_pos_iff.2 hp
      simp at *; omega
  | c :: cs, a, r => by
    simp only [cutAt]
    split
    · rename_i h
      obtain ⟨r', hr⟩ := isPrefixOf_iff.1 h
      simp only [hr, List.drop_left, Option.some.injEq, Prod.mk.injEq]
      constructor
      · rintro ⟨rfl, rfl⟩
        refine ⟨rfl, fun u v e => ?_⟩
        have := congrArg List.length e
        simp at this
        exact List.length_eq_zero_iff.1 (by omega)
      · rintro ⟨e, hu⟩
        have key : ([] : List Char) = a := by
          have hpre : ∃ v, a ++ pat = pat ++ v := by
            have h1 : pat <+: a ++ pat ++ r := ⟨r', by rw [e]; simp⟩
            have h2 : a ++ pat <+: a ++ pat ++ r := ⟨r, rfl⟩
            obtain ⟨v, hv⟩ := List.prefix_of_prefix_length_le h1 h2 (by simp)
            exact ⟨v, hv.symm⟩
          obtain ⟨v, hv⟩ := hpre
          exact hu [] v (by simpa using hv)
        subst key
        exact ⟨rfl, by simpa using e⟩
    · rename_i h
      have hn : ∀ v, c :: cs ≠ pat ++ v := fun v hv => h (isPrefixOf_iff.2 ⟨v, hv⟩)
      constructor
      · intro e
        obtain ⟨p, hp', e⟩ := Option.map_eq_some_iff.1 e
        obtain ⟨a', r'⟩ := p
        simp only [Prod.mk.injEq] at e
        obtain ⟨rfl, rfl⟩ := e
        obtain ⟨e1, hu⟩ := (cutAt_iff hp).1 hp'
        refine ⟨by rw [e1]; rfl, fun u v huv => ?_⟩
        cases u with
        | nil =>
          exfalso
          apply hn (v ++ r')
          rw [e1]
          have := congrArg (· ++ r') huv
          simpa using this
        | cons d u =>
          simp only [List.cons_append, List.cons.injEq] at huv
          rw [hu u v (by simpa using huv.2), huv.1]
      · rintro ⟨e, hu⟩
        cases a with
        | nil => exact absurd (by simpa using e) (hn r)
        | cons d a =>
          simp only [List.cons_append, List.cons.injEq] at e
          obtain ⟨rfl, e⟩ := e
          rw [(cutAt_iff hp).2 ⟨e, fun u v huv => ?_⟩]
          · rfl
          · have := hu (c :: u) v (by simpa using huv)
            simpa using this

theorem cutAt_none_iff {pat cs : List Char} (hp : pat ≠ []) :
    cutAt pat cs = none ↔ ∀ u v, cs ≠ u ++ pat ++ v := by
  constructor
  · intro h u v e
    induction cs generalizing u with
    | nil =>
      have := congrArg List.length e
      have : 0 < pat.length := List.length_pos_iff.2 hp
      simp at *; omega
    | cons c cs ih =>
      simp only [cutAt] at h
      split at h
      · cases h
      · rename_i hn
        simp only [Option.map_eq_none_iff] at h
        cases u with
        | nil => exact hn (isPrefixOf_iff.2 ⟨v, by simpa using e⟩)
        | cons d u =>
          simp only [List.cons_append, List.cons.injEq] at e
          exact ih h u e.2
  · intro h
    cases hc : cutAt pat cs with
    | none => rfl
    | some p =>
      obtain ⟨a, r⟩ := p
      exact absurd (by simpa using ((cutAt_iff hp).1 hc).1) (h a r)

theorem stripPrefix_iff {pat cs r : List Char} : stripPrefix pat cs = some r ↔ cs = pat ++ r := by
  unfold stripPrefix
  split
  · rename_i h
    obtain ⟨r', rfl⟩ := isPrefixOf_iff.1 h
    simp
  · rename_i h
    refine ⟨fun e => (by cases e), fun e => absurd (isPrefixOf_iff.2 ⟨r, e⟩) h⟩

theorem stripPrefix_none {pat cs : List Char} : stripPrefix pat cs = none ↔ ∀ r, cs ≠ pat ++ r := by
  constructor
  · intro h r e
    rw [stripPrefix_iff.2 e] at h; cases h
  · intro h
    cases e : stripPrefix pat cs with
    | none => rfl
    | some r => exact absurd (stripPrefix_iff.1 e) (h r)

/-! ### White space -/

theorem skipSpace_iff {cs r : List Char} : skipSpace cs = r ↔ (∃ w, Blank w ∧ cs = w ++ r) ∧ BlankEnds r := by
  constructor
  · rintro rfl
    obtain ⟨h1, h2, h3⟩ := span_spec isSpace cs
    exact ⟨⟨_, h2, h1⟩, h3⟩
  · rintro ⟨⟨w, hw, rfl⟩, hr⟩
    exact (span_append hw hr).2

theorem blankEnds_cons {c : Char} {r : List Char} (h : isSpace c = false) : BlankEnds (c :: r) := by
  rintro d s e
  simp only [List.cons.injEq] at e
  rw [← e.1]; exact h

/-! ### References -/

theorem pNumRef_iff {base : Nat} {val : Char → Option Nat} (hs : val ';' = none) {cs r : List Char} {c : Char} :
    pNumRef base val cs = some (c, r) ↔ ∃ ds, cs = ds ++ ';' :: r ∧ ds ≠ [] ∧ (∀ d ∈ ds, (val d).isSome = true) ∧
      digits base val ds ≤ 0x10FFFF ∧ c = runeOf (digits base val ds) := by
  unfold pNumRef
  constructor
  · intro h
    split at h
    · rename_i r' hd
      obtain ⟨h1, h2, -⟩ := span_spec (fun c => (val c).isSome) cs
      split at h
      · cases h
      · rename_i hne
        split at h
        · rename_i hle
          simp only [Option.some.injEq, Prod.mk.injEq] at h
          obtain ⟨rfl, rfl⟩ := h
          exact ⟨_, by rw [← hd]; exact h1, hne, h2, hle, rfl⟩
        · cases h
    · cases h
  · rintro ⟨ds, rfl, hne, hd, hle, rfl⟩
    obtain ⟨e1, e2⟩ := span_append (p := fun c => (val c).isSome) (b := ';' :: r) hd
      (by rintro c r e; simp only [List.cons.injEq] at e; rw [← e.1, hs]; rfl)
    rw [e2, e1]
    simp [hne, hle]

theorem nameLike_semicolon : nameLike ';' = false := by decide

theorem entity_iff {n : List Char} {c : Char} : entity n = some c ↔ Entity n c := by
  constructor
  · intro h
    unfold entity at h
    split at h
    · rename_i e; subst e; cases h; exact .lt
    split at h
    · rename_i e; subst e; cases h; exact .gt
    split at h
    · rename_i e; subst e; cases h; exact .amp
    split at h
    · rename_i e; subst e; cases h; exact .apos
    split at h
    · rename_i e; subst e; cases h; exact .quot
    · cases h
  · rintro (_ | _ | _ | _ | _) <;> decide

theorem entity_nameLike {n : List Char} {c : Char} (h : Entity n c) : ∀ d ∈ n, nameLike d = true := by
  cases h <;> decide

theorem entity_no_hash {n : List Char} {c : Char} (h : Entity n c) {r : List Char} : n ++ ';' :: r ≠ '#' :: s := by
  cases h <;> simp

/-- A reference is read as the grammar says. -/
theorem pRef_iff {cs r : List Char} {c : Char} : pRef cs = some (c, r) ↔ ∃ e, '&' :: cs = e ++ r ∧ Ref e c := by
  constructor
  · intro h
    unfold pRef at h
    split at h
    · rename_i cs
      obtain ⟨ds, rfl, h1, h2, h3, rfl⟩ := (pNumRef_iff (by decide)).1 h
      exact ⟨_, by simp, .hex h1 h2 h3⟩
    · obtain ⟨ds, rfl, h1, h2, h3, rfl⟩ := (pNumRef_iff (by decide)).1 h
      exact ⟨_, by simp, .dec h1 h2 h3⟩
    · split at h
      · rename_i r' hd
        obtain ⟨c', hc, e⟩ := Option.map_eq_some_iff.1 h
        simp only [Prod.mk.injEq] at e
        obtain ⟨rfl, rfl⟩ := e
        refine ⟨'&' :: (cs.takeWhile nameLike ++ [';']), ?_, .entity (entity_iff.1 hc)⟩
        obtain ⟨h1, -, -⟩ := span_spec nameLike cs
        rw [hd] at h1
        simpa using h1
      · cases h
  · rintro ⟨e, he, hr⟩
    cases hr with
    | @entity n _ h =>
      simp only [List.cons_append, List.append_assoc, List.nil_append, List.cons.injEq, true_and] at he
      subst he
      unfold pRef
      split
      · rename_i e; exact absurd e (entity_no_hash h)
      · rename_i e; exact absurd e (entity_no_hash h)
      · obtain ⟨e1, e2⟩ := span_append (p := nameLike) (b := ';' :: r) (entity_nameLike h)
          (by rintro c r e; simp only [List.cons.injEq] at e; rw [← e.1]; decide)
        rw [e2, e1]
        simp [entity_iff.2 h]
    | @dec ds h1 h2 h3 =>
      simp only [List.cons_append, List.append_assoc, List.nil_append, List.cons.injEq, true_and] at he
      subst he
      unfold pRef
      split
      · rename_i e
        simp only [List.cons.injEq, true_and] at e
        cases ds with
        | nil => exact absurd rfl h1
        | cons d ds =>
          simp only [List.cons_append, List.cons.injEq] at e
          have := h2 d (by simp)
          rw [e.1] at this
          exact absurd this (by decide)
      · rename_i e
        simp only [List.cons.injEq, true_and] at e
        subst e
        exact (pNumRef_iff (by decide)).2 ⟨ds, rfl, h1, h2, h3, rfl⟩
      · rename_i h; exact absurd rfl (h _)
    | @hex ds h1 h2 h3 =>
      simp only [List.cons_append, List.append_assoc, List.nil_append, List.cons.injEq, true_and] at he
      subst he
      exact (pNumRef_iff (by decide)).2 ⟨ds, rfl, h1, h2, h3, rfl⟩

theorem ref_shape {e : List Char} {c : Char} (h : Ref e c) : ∃ r, e = '&' :: r := by
  cases h <;> exact ⟨_, rfl⟩

/-! ### Character data -/

theorem unescape_iff : ∀ {f : Nat} {raw s : List Char}, raw.length ≤ f →
    ((unescape f raw = some s ∧ ∀ c ∈ s, isChar c = true) ↔ Data raw s)
  | f, [], s, _ => by
    simp only [unescape, Option.some.injEq]
    constructor
    · rintro ⟨rfl, -⟩; exact .nil
    · intro h
      generalize hx : ([] : List Char) = x at h
      cases h with
      | nil => exact ⟨rfl, by simp⟩
      | ref hr _ _ => obtain ⟨r, rfl⟩ := ref_shape hr; simp at hx
      | _ => simp at hx
  | f + 1, c :: cs, s, hf => by
    have hl : cs.length ≤ f := by simpa using hf
    constructor
    · rintro ⟨h, hs⟩
      simp only [unescape] at h
      split at h
      · rename_i hc; subst hc
        split at h
        · cases h
        · rename_i d r hp
          obtain ⟨s', h', rfl⟩ := Option.map_eq_some_iff.1 h
          obtain ⟨e, he, hr⟩ := pRef_iff.1 hp
          have hl : r.length ≤ f := by
            obtain ⟨e', rfl⟩ := ref_shape hr
            have := congrArg List.length he
            simp at this; omega
          rw [he]
          exact .ref hr (hs d (by simp)) ((unescape_iff hl).1 ⟨h', fun c hc => hs c (by simp [hc])⟩)
      · rename_i hc
        split at h
        · rename_i hr; subst hr
          split at h
          · rename_i r
            obtain ⟨s', h', rfl⟩ := Option.map_eq_some_iff.1 h
            exact .crlf ((unescape_iff (by simp at hf; omega)).1 ⟨h', fun c hc => hs c (by simp [hc])⟩)
          · rename_i r hn
            obtain ⟨s', h', rfl⟩ := Option.map_eq_some_iff.1 h
            exact .cr (fun r' e => hn r' e) ((unescape_iff hl).1 ⟨h', fun c hc => hs c (by simp [hc])⟩)
        · rename_i hr
          obtain ⟨s', h', rfl⟩ := Option.map_eq_some_iff.1 h
          exact .char hc hr (hs c (by simp)) ((unescape_iff hl).1 ⟨h', fun c hc => hs c (by simp [hc])⟩)
    · intro h
      generalize hx : c :: cs = x at h
      cases h with
      | nil => simp at hx
      | @char c' r s' h1 h2 h3 h4 =>
        simp only [List.cons.injEq] at hx
        obtain ⟨rfl, rfl⟩ := hx
        obtain ⟨e, hs⟩ := (unescape_iff hl).2 h4
        simp only [unescape, if_neg h1, if_neg h2, e, Option.map_some, true_and]
        intro d hd
        rcases List.mem_cons.1 hd with rfl | hd
        · exact h3
        · exact hs d hd
      | @crlf r s' h4 =>
        simp only [List.cons.injEq] at hx
        obtain ⟨rfl, rfl⟩ := hx
        obtain ⟨e, hs⟩ := (unescape_iff (f := f) (by simp at hf; omega)).2 h4
        simp only [unescape, if_neg (show ¬ '\r' = '&' by decide), if_true, e, Option.map_some, true_and]
        intro d hd
        rcases List.mem_cons.1 hd with rfl | hd
        · decide
        · exact hs d hd
      | @cr r s' hn h4 =>
        simp only [List.cons.injEq] at hx
        obtain ⟨rfl, rfl⟩ := hx
        obtain ⟨e, hs⟩ := (unescape_iff hl).2 h4
        simp only [unescape, if_neg (show ¬ '\r' = '&' by decide), if_true]
        simp only [e, Option.map_some, true_and]
        intro d hd
        rcases List.mem_cons.1 hd with rfl | hd
        · decide
        · exact hs d hd
      | @ref e r s' d hr hd h4 =>
        have hp : pRef cs = some (d, r) := by
          refine pRef_iff.2 ⟨e, ?_, hr⟩
          obtain ⟨e', rfl⟩ := ref_shape hr
          simp only [List.cons_append, List.cons.injEq] at hx
          rw [hx.2]; rfl
        · obtain ⟨e', rfl⟩ := ref_shape hr
          simp only [List.cons_append, List.cons.injEq] at hx
          obtain ⟨rfl, rfl⟩ := hx
          obtain ⟨e, hs⟩ := (unescape_iff (f := f) (by simp at hf; omega)).2 h4
          simp only [List.cons_append, unescape, if_true, hp, e, Option.map_some, true_and]
          intro c hc
          rcases List.mem_cons.1 hc with rfl | hc
          · exact hd
          · exact hs c hc

/-- What the characters of a text or a value denote. -/
theorem denotes_iff {raw s : List Char} : denotes raw = some s ↔ Data raw s := by
  rw [← unescape_iff (Nat.le_refl _)]
  unfold denotes
  cases unescape raw.length raw with
  | none => simp
  | some d =>
    simp only [Option.some.injEq]
    split
    · rename_i h
      simp only [List.all_eq_true] at h
      simp only [Option.some.injEq]
      constructor
      · rintro rfl; exact ⟨rfl, h⟩
      · rintro ⟨rfl, -⟩; rfl
    · rename_i h
      simp only [List.all_eq_true] at h
      constructor
      · intro e; cases e
      · rintro ⟨rfl, h'⟩; exact absurd h' h

theorem lineEnds_iff : ∀ {raw s : List Char}, (lineEnds raw = s ∧ ∀ c ∈ s, isChar c = true) ↔ Literal raw s
  | [], s => by
    simp only [lineEnds]
    constructor
    · rintro ⟨rfl, -⟩; exact .nil
    · intro h; cases h; exact ⟨rfl, by simp⟩
  | c :: cs, s => by
    constructor
    · rintro ⟨h, hs⟩
      subst h
      unfold lineEnds at hs ⊢
      split at hs
      · rename_i hr; subst hr
        simp only [if_true]
        split at hs
        · rename_i r
          exact .crlf (lineEnds_iff.1 ⟨rfl, fun c hc => hs c (by simp [hc])⟩)
        · rename_i hn
          exact .cr (fun r' e => hn r' e) (lineEnds_iff.1 ⟨rfl, fun c hc => hs c (by simp [hc])⟩)
      · rename_i hr
        simp only [if_neg hr]
        exact .char hr (hs c (by simp)) (lineEnds_iff.1 ⟨rfl, fun c hc => hs c (by simp [hc])⟩)
    · intro h
      cases h with
      | char h1 h2 h3 =>
        obtain ⟨e, hs⟩ := lineEnds_iff.2 h3
        unfold lineEnds
        simp only [if_neg h1, e, true_and]
        intro d hd
        rcases List.mem_cons.1 hd with rfl | hd
        · exact h2
        · exact hs d hd
      | crlf h3 =>
        obtain ⟨e, hs⟩ := lineEnds_iff.2 h3
        unfold lineEnds
        simp only [if_true, e, true_and]
        intro d hd
        rcases List.mem_cons.1 hd with rfl | hd
        · decide
        · exact hs d hd
      | cr hn h3 =>
        obtain ⟨e, hs⟩ := lineEnds_iff.2 h3
        unfold lineEnds
        simp only [if_true]
        simp only [e, true_and]
        intro d hd
        rcases List.mem_cons.1 hd with rfl | hd
        · decide
        · exact hs d hd

/-! ### Names -/

theorem splitName_iff {n : List Char} {q : QName} : splitName n = some q ↔ Split n q := by
  obtain ⟨h1, h2, h3⟩ := span_spec (fun c => decide (c ≠ ':')) n
  have h2 : ':' ∉ n.takeWhile (· ≠ ':') := by
    intro h; simpa using h2 ':' h
  unfold splitName
  constructor
  · intro h
    split at h
    · cases h
    · rename_i hc
      split at h
      · rename_i hs
        simp only [Option.some.injEq] at h
        subst h
        by_cases hm : ':' ∈ n
        · cases hd : n.dropWhile (fun c => decide (c ≠ ':')) with
          | nil =>
            rw [hd, List.append_nil] at h1
            rw [h1] at hm
            exact absurd hm h2
          | cons d l =>
            have : d = ':' := by have := h3 d l hd; simpa using this
            subst this
            rw [hd] at h1 hs
            have hcl : ':' ∉ l := by
              intro hl
              apply hc
              rw [h1]
              simp only [List.count_append, List.count_cons_self]
              have := List.count_pos_iff.2 hl
              omega
            rcases hs with hs | hs | hs
            · exact absurd hm hs
            · have hs : n.takeWhile (fun c => decide (c ≠ ':')) = [] := hs
              rw [hs] at h1
              rw [h1]; exact .first hcl
            · simp only [List.tail_cons] at hs
              subst hs
              rw [h1]; exact .last h2
        · exact .plain hm
      · rename_i hs
        simp only [not_or, Decidable.not_not] at hs
        obtain ⟨hm, hp, hl⟩ := hs
        simp only [Option.some.injEq] at h
        cases hd : n.dropWhile (fun c => decide (c ≠ ':')) with
        | nil =>
          rw [hd, List.append_nil] at h1
          rw [h1] at hm
          exact absurd hm h2
        | cons d l =>
          have : d = ':' := by have := h3 d l hd; simpa using this
          subst this
          rw [hd] at h1 hl h
          subst h
          have hcl : ':' ∉ l := by
            intro hl
            apply hc
            rw [h1]
            simp only [List.count_append, List.count_cons_self]
            have := List.count_pos_iff.2 hl
            omega
          simp only [List.tail_cons] at hl ⊢
          have := Split.pref hp hl h2 hcl
          have h1 : n = List.takeWhile (fun x => decide (x ≠ ':')) n ++ ':' :: l := h1
          rw [← h1] at this
          exact this
  · intro h
    cases h with
    | plain h =>
      have : n.count ':' = 0 := List.count_eq_zero.2 h
      simp [this, h]
    | @pref p l hp hl hcp hcl =>
      have e : (p ++ ':' :: l).count ':' = 1 := by
        simp [List.count_append, List.count_eq_zero.2 hcp, List.count_eq_zero.2 hcl]
      obtain ⟨e1, e2⟩ := span_append (p := fun c => decide (c ≠ ':')) (a := p) (b := ':' :: l)
        (by intro c hc; simp; rintro rfl; exact hcp hc)
        (by rintro c r e; simp only [List.cons.injEq] at e; simp [← e.1])
      rw [e, e1, e2]
      simp [hp, hl]
    | @first l hcl =>
      have e : (':' :: l).count ':' = 1 := by simp [List.count_eq_zero.2 hcl]
      rw [e]
      simp
    | @last p hcp =>
      have e : (p ++ [':']).count ':' = 1 := by simp [List.count_append, List.count_eq_zero.2 hcp]
      obtain ⟨e1, e2⟩ := span_append (p := fun c => decide (c ≠ ':')) (a := p) (b := [':'])
        (by intro c hc; simp; rintro rfl; exact hcp hc)
        (by rintro c r e; simp only [List.cons.injEq] at e; simp [← e.1])
      rw [e, e1, e2]
      simp

variable [XmlLang]

theorem pName_iff {cs n r : List Char} : pName cs = some (n, r) ↔
    cs = n ++ r ∧ (∀ c ∈ n, nameLike c = true) ∧ isName n = true ∧ NameEnds r := by
  unfold pName readName
  obtain ⟨h1, h2, h3⟩ := span_spec nameLike cs
  constructor
  · intro h
    split at h
    · rename_i n' r' e
      split at e
      · cases e
      · rename_i hne
        simp only [not_or] at hne
        simp only [Option.some.injEq, Prod.mk.injEq] at e
        split at h
        · rename_i hn
          simp only [Option.some.injEq, Prod.mk.injEq] at h
          obtain ⟨rfl, rfl⟩ := h
          obtain ⟨rfl, rfl⟩ := e
          refine ⟨h1, h2, hn, ?_⟩
          cases hd : cs.dropWhile nameLike with
          | nil => exact absurd hd hne.2
          | cons c l => exact ⟨c, l, rfl, h3 c l hd⟩
        · cases h
    · cases h
  · rintro ⟨rfl, hn, hi, c, l, rfl, hc⟩
    obtain ⟨e1, e2⟩ := span_append (p := nameLike) (b := c :: l) hn
      (by rintro c r e; simp only [List.cons.injEq] at e; rw [← e.1]; exact hc)
    rw [e1, e2]
    have : n ≠ [] := by rintro rfl; simp [isName] at hi
    simp [this, hi]

theorem pQName_iff {cs r : List Char} {q : QName} : pQName cs = some (q, r) ↔
    ∃ n, cs = n ++ r ∧ XmlGrammar.Name n q ∧ NameEnds r := by
  unfold pQName
  constructor
  · intro h
    split at h
    · rename_i n r' e
      obtain ⟨q', hq, e'⟩ := Option.map_eq_some_iff.1 h
      simp only [Prod.mk.injEq] at e'
      obtain ⟨rfl, rfl⟩ := e'
      obtain ⟨h1, h2, h3, h4⟩ := pName_iff.1 e
      exact ⟨n, h1, ⟨h2, h3, splitName_iff.1 hq⟩, h4⟩
    · cases h
  · rintro ⟨n, h1, ⟨h2, h3, hq⟩, h4⟩
    rw [pName_iff.2 ⟨h1, h2, h3, h4⟩]
    simp [splitName_iff.2 hq]

/-! ### Tags -/

omit [XmlLang] in
theorem pAttVal_iff {cs v r : List Char} : pAttVal cs = some (v, r) ↔ ∃ q, cs = q ++ r ∧ Value q v := by
  constructor
  · intro h
    unfold pAttVal at h
    split at h
    · cases h
    · rename_i q cs
      split at h
      · rename_i hq
        obtain ⟨h1, h2, -⟩ := span_spec (fun c => decide (c ≠ q ∧ c ≠ '<')) cs
        split at h
        · rename_i c r' hd
          have hd : cs.dropWhile (fun c => decide (c ≠ q ∧ c ≠ '<')) = c :: r' := hd
          split at h
          · rename_i hc; subst hc
            obtain ⟨v', hv, e⟩ := Option.map_eq_some_iff.1 h
            simp only [Prod.mk.injEq] at e
            obtain ⟨rfl, rfl⟩ := e
            refine ⟨c :: (cs.takeWhile (fun d => decide (d ≠ c ∧ d ≠ '<')) ++ [c]), ?_, .mk hq ?_ ?_ (denotes_iff.1 hv)⟩
            · rw [hd] at h1; simpa using h1
            · intro hm; simpa using h2 c hm
            · intro hm; simpa using h2 '<' hm
          · cases h
        · cases h
      · cases h
  · rintro ⟨q, rfl, h⟩
    cases h with
    | @mk q raw v hq h1 h2 h3 =>
      obtain ⟨e1, e2⟩ := span_append (p := fun c => decide (c ≠ q ∧ c ≠ '<')) (a := raw) (b := q :: r)
        (by intro c hc
            simp only [decide_eq_true_eq]
            exact ⟨fun e => h1 (e ▸ hc), fun e => h2 (e ▸ hc)⟩)
        (by rintro c r e; simp only [List.cons.injEq] at e; simp [← e.1])
      unfold pAttVal
      simp only [List.cons_append, List.append_assoc, List.nil_append, hq, if_true]
      rw [e2, e1]
      simp [denotes_iff.2 h3]

omit [XmlLang] in
theorem notSpace_nameLike {c : Char} (h : nameLike c = true) : isSpace c = false := by
  cases h' : isSpace c with
  | false => rfl
  | true =>
    exfalso
    simp only [isSpace, Bool.or_eq_true, decide_eq_true_eq] at h'
    rcases h' with ((rfl | rfl) | rfl) | rfl <;> revert h <;> decide

omit [XmlLang] in
theorem value_shape {q v : List Char} (h : Value q v) : ∃ c r, q = c :: r ∧ (c = '"' ∨ c = '\'') := by
  cases h with
  | mk hq => exact ⟨_, _, rfl, hq⟩

theorem name_shape {n : List Char} {q : QName} (h : XmlGrammar.Name n q) :
    ∃ c r, n = c :: r ∧ nameLike c = true ∧ c ≠ '/' ∧ c ≠ '>' ∧ c ≠ '?' ∧ c ≠ '!' := by
  cases n with
  | nil => simp [XmlGrammar.Name, isName] at h
  | cons c r =>
    have hc := h.1 c (by simp)
    refine ⟨c, r, rfl, hc, ?_, ?_, ?_, ?_⟩ <;> rintro rfl <;> revert hc <;> decide

omit [XmlLang] in
theorem nameEnds_blank {w : List Char} {c : Char} {r : List Char} (hw : Blank w) (hc : nameLike c = false) :
    NameEnds (w ++ c :: r) := by
  cases w with
  | nil => exact ⟨c, r, rfl, hc⟩
  | cons d w =>
    refine ⟨d, w ++ c :: r, rfl, ?_⟩
    cases h : nameLike d with
    | false => rfl
    | true =>
      have := hw d (by simp)
      simp only [isSpace, Bool.or_eq_true, decide_eq_true_eq] at this
      rcases this with ((rfl | rfl) | rfl) | rfl <;> revert h <;> decide

theorem attrs_sound : ∀ {f : Nat} {cs r : List Char} {as : List (QName × List Char)} {e : Bool},
    pAttrs f cs = some (as, e, r) → ∃ t, cs = t ++ r ∧ Attrs t as e
  | 0, _, _, _, _, h => by simp [pAttrs] at h
  | f + 1, cs, r, as, e, h => by
    simp only [pAttrs] at h
    split at h
    · cases h
    · rename_i c r₁ hs
      obtain ⟨⟨w, hw, rfl⟩, -⟩ := skipSpace_iff.1 hs
      split at h
      · rename_i hc; subst hc
        split at h
        · simp only [Option.some.injEq, Prod.mk.injEq] at h
          obtain ⟨rfl, rfl, rfl⟩ := h
          exact ⟨w ++ ['/', '>'], by simp, .closeEmpty hw⟩
        · cases h
      · split at h
        · rename_i hc; subst hc
          simp only [Option.some.injEq, Prod.mk.injEq] at h
          obtain ⟨rfl, rfl, rfl⟩ := h
          exact ⟨w ++ ['>'], by simp, .close hw⟩
        · split at h
          · cases h
          · rename_i q r₂ hq
            obtain ⟨n, hn, hN, -⟩ := pQName_iff.1 hq
            split at h
            · rename_i r₃ hs₂
              obtain ⟨⟨w₂, hw₂, rfl⟩, -⟩ := skipSpace_iff.1 hs₂
              split at h
              · cases h
              · rename_i v r₄ hv
                obtain ⟨⟨p, a⟩, hp, e'⟩ := Option.map_eq_some_iff.1 h
                simp only [Prod.mk.injEq] at e'
                obtain ⟨rfl, rfl⟩ := e'
                obtain ⟨t, rfl, ht⟩ := attrs_sound hp
                obtain ⟨qv, hqv, hV⟩ := pAttVal_iff.1 hv
                obtain ⟨⟨w₃, hw₃, rfl⟩, -⟩ := skipSpace_iff.1 hqv
                rw [hn]
                exact ⟨_, by simp, .attr hw hN hw₂ hw₃ hV ht⟩
            · cases h

theorem attrs_complete {t : List Char} {as : List (QName × List Char)} {e : Bool} (h : Attrs t as e) :
    ∀ {f : Nat} {r : List Char}, t.length < f → pAttrs f (t ++ r) = some (as, e, r) := by
  induction h with
  | @close w hw =>
    intro f r hf
    cases f with
    | zero => omega
    | succ f =>
      have hs : skipSpace (w ++ ['>'] ++ r) = '>' :: r :=
        skipSpace_iff.2 ⟨⟨w, hw, by simp⟩, blankEnds_cons (by decide)⟩
      simp only [pAttrs, hs]
      simp
  | @closeEmpty w hw =>
    intro f r hf
    cases f with
    | zero => omega
    | succ f =>
      have hs : skipSpace (w ++ ['/', '>'] ++ r) = '/' :: '>' :: r :=
        skipSpace_iff.2 ⟨⟨w, hw, by simp⟩, blankEnds_cons (by decide)⟩
      simp only [pAttrs, hs]
      simp
  | @attr w₁ n w₂ w₃ q t m v as e hw₁ hn hw₂ hw₃ hq ht ih =>
    intro f r hf
    cases f with
    | zero => omega
    | succ f =>
      obtain ⟨c, n', rfl, hc, h1, h2, -, -⟩ := name_shape hn
      have hs : skipSpace (w₁ ++ (c :: n' ++ (w₂ ++ '=' :: (w₃ ++ (q ++ t)))) ++ r) =
          c :: (n' ++ (w₂ ++ '=' :: (w₃ ++ (q ++ (t ++ r))))) :=
        skipSpace_iff.2 ⟨⟨w₁, hw₁, by simp⟩, blankEnds_cons (notSpace_nameLike hc)⟩
      have hq' : pQName (c :: (n' ++ (w₂ ++ '=' :: (w₃ ++ (q ++ (t ++ r)))))) =
          some (m, w₂ ++ '=' :: (w₃ ++ (q ++ (t ++ r)))) :=
        pQName_iff.2 ⟨c :: n', by simp, hn, nameEnds_blank hw₂ (by decide)⟩
      have hs₂ : skipSpace (w₂ ++ '=' :: (w₃ ++ (q ++ (t ++ r)))) = '=' :: (w₃ ++ (q ++ (t ++ r))) :=
        skipSpace_iff.2 ⟨⟨w₂, hw₂, rfl⟩, blankEnds_cons (by decide)⟩
      have hs₃ : skipSpace (w₃ ++ (q ++ (t ++ r))) = q ++ (t ++ r) := by
        refine skipSpace_iff.2 ⟨⟨w₃, hw₃, rfl⟩, ?_⟩
        obtain ⟨d, r', rfl, hd⟩ := value_shape hq
        exact blankEnds_cons (by rcases hd with rfl | rfl <;> decide)
      have hv : pAttVal (q ++ (t ++ r)) = some (v, t ++ r) := pAttVal_iff.2 ⟨q, rfl, hq⟩
      simp only [pAttrs, hs, if_neg h1, if_neg h2, hq', hs₂, hs₃, hv]
      rw [ih (f := f) (r := r) (by simp at hf; omega)]
      rfl

/-! ### Directives -/

omit [XmlLang] in
theorem directive_sound : ∀ {f : Nat} {q : Option Char} {d : Nat} {cs r : List Char},
    directive f q d cs = some r →
      match q with
      | none => ∃ t, cs = t ++ r ∧ Directive d t
      | some q => ∃ b t, cs = b ++ q :: (t ++ r) ∧ q ∉ b ∧ Directive d t
  | 0, _, _, _, _, h => by simp [directive] at h
  | f + 1, q, d, [], r, h => by simp [directive] at h
  | f + 1, some q, d, c :: cs, r, h => by
    simp only [directive] at h
    by_cases hc : c = q
    · subst hc
      simp only [if_true] at h
      obtain ⟨t, rfl, ht⟩ := directive_sound h
      exact ⟨[], t, by simp, by simp, ht⟩
    · simp only [if_neg hc] at h
      obtain ⟨b, t, rfl, hb, ht⟩ := directive_sound h
      exact ⟨c :: b, t, by simp, by simp [hb, Ne.symm hc], ht⟩
  | f + 1, none, d, c :: cs, r, h => by
    simp only [directive] at h
    split at h
    · rename_i hc; subst hc
      split at h
      · rename_i hd; subst hd
        simp only [Option.some.injEq] at h; subst h
        exact ⟨['>'], rfl, .close⟩
      · rename_i hd
        obtain ⟨t, rfl, ht⟩ := directive_sound h
        obtain ⟨d, rfl⟩ := Nat.exists_eq_succ_of_ne_zero hd
        exact ⟨'>' :: t, rfl, .up ht⟩
    · rename_i h1
      split at h
      · rename_i hq
        obtain ⟨b, t, rfl, hb, ht⟩ := directive_sound h
        exact ⟨c :: (b ++ c :: t), by simp, .quoted hq hb ht⟩
      · rename_i hq
        simp only [not_or] at hq
        split at h
        · rename_i hc; subst hc
          split at h
          · rename_i r₁ hs
            have hs := stripPrefix_iff.1 hs
            subst hs
            split at h
            · cases h
            · rename_i b r₂ hcut
              obtain ⟨rfl, hu⟩ := (cutAt_iff (by simp)).1 hcut
              obtain ⟨t, rfl, ht⟩ := directive_sound h
              exact ⟨_, by simp, .comment hu ht⟩
          · rename_i hs
            have hs := stripPrefix_none.1 hs
            obtain ⟨t, rfl, ht⟩ := directive_sound h
            refine ⟨'<' :: t, rfl, .down (fun r' e => ?_) ht⟩
            exact hs (r' ++ r) (by rw [e]; simp)
        · rename_i hc
          obtain ⟨t, rfl, ht⟩ := directive_sound h
          exact ⟨c :: t, rfl, .char hc h1 hq.1 hq.2 ht⟩

omit [XmlLang] in
theorem directive_quoted {q : Char} : ∀ {b : List Char} {f d : Nat} {r : List Char}, q ∉ b →
    directive (b.length + 1 + f) (some q) d (b ++ q :: r) = directive f none d r
  | [], f, d, r, _ => by
    rw [show ([] : List Char).length + 1 + f = f + 1 by simp; omega]
    simp [directive]
  | c :: b, f, d, r, h => by
    simp only [List.mem_cons, not_or] at h
    rw [show (c :: b).length + 1 + f = b.length + 1 + f + 1 by simp; omega]
    simp only [List.cons_append, directive, if_neg (Ne.symm h.1)]
    exact directive_quoted h.2

omit [XmlLang] in
theorem directive_ends {d : Nat} {t : List Char} (h : Directive d t) : ∃ u, t = u ++ ['>'] := by
  induction h with
  | close => exact ⟨[], rfl⟩
  | @up d r _ ih => obtain ⟨u, rfl⟩ := ih; exact ⟨'>' :: u, rfl⟩
  | @quoted d q b r _ _ _ ih => obtain ⟨u, rfl⟩ := ih; exact ⟨q :: (b ++ q :: u), by simp⟩
  | @comment d b r _ _ ih => obtain ⟨u, rfl⟩ := ih; exact ⟨'<' :: '!' :: '-' :: '-' :: (b ++ '-' :: '-' :: '>' :: u), by simp⟩
  | @down d r _ _ ih => obtain ⟨u, rfl⟩ := ih; exact ⟨'<' :: u, rfl⟩
  | @char d c r _ _ _ _ _ ih => obtain ⟨u, rfl⟩ := ih; exact ⟨c :: u, rfl⟩

omit [XmlLang] in
theorem directive_complete {d : Nat} {t : List Char} (h : Directive d t) :
    ∀ {f : Nat} {r : List Char}, t.length < f → directive f none d (t ++ r) = some r := by
  induction h with
  | close =>
    intro f r hf
    cases f with
    | zero => omega
    | succ f => simp [directive]
  | up _ ih =>
    intro f r hf
    cases f with
    | zero => omega
    | succ f =>
      simp only [List.cons_append, directive, if_true, Nat.add_one_ne_zero, if_false, Nat.add_sub_cancel]
      exact ih (by simp at hf; omega)
  | @quoted d q b t hq hb _ ih =>
    intro f r hf
    cases f with
    | zero => omega
    | succ f =>
      have h1 : q ≠ '>' := by rcases hq with rfl | rfl <;> decide
      simp only [List.cons_append, List.append_assoc, directive, if_neg h1, hq, if_true]
      simp only [List.length_cons, List.length_append] at hf
      obtain ⟨g, rfl⟩ : ∃ g, f = b.length + 1 + g := ⟨f - (b.length + 1), by omega⟩
      rw [directive_quoted hb]
      exact ih (by omega)
  | @comment d b t hu _ ih =>
    intro f r hf
    cases f with
    | zero => omega
    | succ f =>
      have hs : stripPrefix ['!', '-', '-'] ('!' :: '-' :: '-' :: (b ++ '-' :: '-' :: '>' :: (t ++ r))) =
          some (b ++ '-' :: '-' :: '>' :: (t ++ r)) := stripPrefix_iff.2 rfl
      have hc : cutAt ['-', '-', '>'] (b ++ '-' :: '-' :: '>' :: (t ++ r)) = some (b, t ++ r) :=
        (cutAt_iff (by simp)).2 ⟨by simp, hu⟩
      simp only [List.cons_append, List.append_assoc, directive]
      simp only [hs, hc, show ¬ '<' = '>' by decide, show ¬ ('<' = '\'' ∨ '<' = '"') by decide, if_false, if_true]
      exact ih (by simp at hf; omega)
  | @down d t hn ht ih =>
    intro f r hf
    cases f with
    | zero => omega
    | succ f =>
      have hs : stripPrefix ['!', '-', '-'] (t ++ r) = none := by
        refine stripPrefix_none.2 fun r' e => ?_
        obtain ⟨u, rfl⟩ := directive_ends ht
        match u with
        | [] => simp at e
        | [a] => simp at e
        | [a, b] => simp at e
        | a :: b :: c :: u =>
          simp only [List.cons_append, List.cons.injEq, List.nil_append] at e
          obtain ⟨rfl, rfl, rfl, -⟩ := e
          exact hn _ rfl
      simp only [List.cons_append, directive]
      simp only [hs, show ¬ '<' = '>' by decide, show ¬ ('<' = '\'' ∨ '<' = '"') by decide, if_false, if_true]
      exact ih (by simp at hf; omega)
  | @char d c t h1 h2 h3 h4 _ ih =>
    intro f r hf
    cases f with
    | zero => omega
    | succ f =>
      simp only [List.cons_append, directive, if_neg h1, if_neg h2, h3, h4, or_self, if_false]
      exact ih (by simp at hf; omega)

/-! ### Tokens -/

theorem inst_iff {cs r : List Char} : pInst cs = some r ↔ ∃ t, Misc ('<' :: '?' :: t) ∧ cs = t ++ r := by
  unfold pInst
  constructor
  · intro h
    split at h
    · cases h
    · rename_i n r₁ hn
      obtain ⟨rfl, h1, h2, h3⟩ := pName_iff.1 hn
      split at h
      · cases h
      · rename_i d r₂ hcut
        obtain ⟨hs, hu⟩ := (cutAt_iff (by simp)).1 hcut
        obtain ⟨⟨w, hw, rfl⟩, hb⟩ := skipSpace_iff.1 hs
        split at h
        · cases h
        · rename_i hx
          simp only [Option.some.injEq] at h
          subst h
          refine ⟨n ++ (w ++ (d ++ ['?', '>'])), .inst h1 h2 ?_ hw ?_ hu ?_, by simp⟩
          · obtain ⟨c, l, e, hc⟩ := h3
            cases w with
            | nil =>
              cases d with
              | nil => exact ⟨'?', ['>'], rfl, by decide⟩
              | cons x d =>
                simp only [List.nil_append, List.cons_append, List.cons.injEq] at e
                exact ⟨x, d ++ ['?', '>'], rfl, e.1 ▸ hc⟩
            | cons x w =>
              simp only [List.cons_append, List.cons.injEq] at e
              exact ⟨x, w ++ (d ++ ['?', '>']), rfl, e.1 ▸ hc⟩
          · rintro c l rfl
            exact hb c (l ++ (['?', '>'] ++ r₂)) rfl
          · rintro rfl
            simpa using hx
  · rintro ⟨t, h, rfl⟩
    cases h with
    | @inst n w b h1 h2 h3 hw hb hu hd =>
      have hn : pName (n ++ (w ++ (b ++ ['?', '>'])) ++ r) = some (n, w ++ (b ++ (['?', '>'] ++ r))) := by
        refine pName_iff.2 ⟨by simp, h1, h2, ?_⟩
        obtain ⟨c, l, e, hc⟩ := h3
        exact ⟨c, l ++ r, by rw [← List.cons_append, ← e]; simp, hc⟩
      have hs : skipSpace (w ++ (b ++ (['?', '>'] ++ r))) = b ++ (['?', '>'] ++ r) := by
        refine skipSpace_iff.2 ⟨⟨w, hw, rfl⟩, ?_⟩
        cases b with
        | nil => exact blankEnds_cons (by decide)
        | cons c b => exact blankEnds_cons (hb c b rfl)
      have hc : cutAt ['?', '>'] (b ++ (['?', '>'] ++ r)) = some (b, r) := (cutAt_iff (by simp)).2 ⟨rfl, hu⟩
      simp only [hn, hs, hc]
      rw [if_neg]
      rintro ⟨e, h⟩
      rw [hd e] at h
      simp at h

omit [XmlLang] in
theorem textEnds_drop (cs : List Char) : TextEnds (cs.dropWhile (· ≠ '<')) := by
  intro c r h
  have := (span_spec (fun c => decide (c ≠ '<')) cs).2.2 c r h
  simpa using this

theorem token_text_sound {cs s r : List Char} (h : token cs = some (.text s, r)) :
    ∃ t, cs = t ++ r ∧ ((Text t s ∧ TextEnds r) ∨ CData t s) := by
  unfold token at h
  split at h
  · cases h
  · rename_i c cs
    split at h
    · rename_i hc; subst hc
      split at h
      · cases h
      · rename_i d ds
        split at h
        · split at h
          · cases h
          · split at h <;> cases h
        · split at h
          · obtain ⟨_, _, e⟩ := Option.map_eq_some_iff.1 h; cases e
          · split at h
            · rename_i hd; subst hd
              unfold pBang at h
              split at h
              · cases h
              · rename_i e r₁
                split at h
                · split at h
                  · split at h <;> cases h
                  · cases h
                · split at h
                  · rename_i he; subst he
                    split at h
                    · cases h
                    · rename_i r₂ hs
                      have hs := stripPrefix_iff.1 hs
                      subst hs
                      split at h
                      · cases h
                      · rename_i raw r₃ hcut
                        obtain ⟨rfl, hu⟩ := (cutAt_iff (by simp)).1 hcut
                        split at h
                        · rename_i hall
                          simp only [Option.some.injEq, Prod.mk.injEq, Tok.text.injEq] at h
                          obtain ⟨rfl, rfl⟩ := h
                          refine ⟨_, ?_, .inr (.mk hu (lineEnds_iff.1 ⟨rfl, by simpa using hall⟩))⟩
                          simp
                        · cases h
                  · obtain ⟨_, _, e⟩ := Option.map_eq_some_iff.1 h; cases e
            · split at h
              · cases h
              · obtain ⟨_, _, e⟩ := Option.map_eq_some_iff.1 h; cases e
    · rename_i hc
      split at h
      · cases h
      · rename_i hcut
        obtain ⟨d, hd, e⟩ := Option.map_eq_some_iff.1 h
        simp only [Prod.mk.injEq, Tok.text.injEq] at e
        obtain ⟨rfl, rfl⟩ := e
        obtain ⟨h1, h2, -⟩ := span_spec (fun c => decide (c ≠ '<')) (c :: cs)
        refine ⟨_, h1, .inl ⟨⟨?_, ?_, ?_, denotes_iff.1 hd⟩, textEnds_drop _⟩⟩
        · simp [hc]
        · intro hm; simpa using h2 '<' hm
        · have : cutAt [']', ']', '>'] ((c :: cs).takeWhile (· ≠ '<')) = none := by simpa using hcut
          exact (cutAt_none_iff (by simp)).1 this

theorem token_text {t s r : List Char} (h : Text t s) (hr : TextEnds r) : token (t ++ r) = some (.text s, r) := by
  obtain ⟨h1, h2, h3, h4⟩ := h
  obtain ⟨e1, e2⟩ := span_append (p := fun c => decide (c ≠ '<')) (a := t) (b := r)
    (by intro c hc; simp only [decide_eq_true_eq]; rintro rfl; exact h2 hc)
    (by intro c l e; simp [hr c l e])
  have hcut : cutAt [']', ']', '>'] t = none := (cutAt_none_iff (by simp)).2 h3
  cases t with
  | nil => exact absurd rfl h1
  | cons c t =>
    have hc : c ≠ '<' := by rintro rfl; exact h2 (by simp)
    unfold token
    simp only [List.cons_append, if_neg hc]
    simp only [List.cons_append] at e1 e2
    rw [e1, e2, hcut]
    simp [denotes_iff.2 h4]

theorem token_cdata {t s r : List Char} (h : CData t s) : token (t ++ r) = some (.text s, r) := by
  cases h with
  | @mk b s hu hl =>
    obtain ⟨e, hs⟩ := lineEnds_iff.2 hl
    have hs' : stripPrefix ['C', 'D', 'A', 'T', 'A', '['] ('C' :: 'D' :: 'A' :: 'T' :: 'A' :: '[' :: (b ++ ([']', ']', '>'] ++ r))) =
        some (b ++ ([']', ']', '>'] ++ r)) := stripPrefix_iff.2 rfl
    have hc : cutAt [']', ']', '>'] (b ++ ([']', ']', '>'] ++ r)) = some (b, r) := (cutAt_iff (by simp)).2 ⟨rfl, hu⟩
    have hall : s.all isChar = true := by simpa using hs
    simp only [List.cons_append, List.append_assoc, List.nil_append] at hs' hc ⊢
    unfold token
    simp only [if_true, show ¬ '!' = '/' by decide, show ¬ '!' = '?' by decide, if_false]
    unfold pBang
    simp only [show ¬ '[' = '-' by decide, if_false, if_true, hs', hc, e, hall]

theorem token_misc_sound {cs r : List Char} (h : token cs = some (.misc, r)) : ∃ t, cs = t ++ r ∧ Misc t := by
  unfold token at h
  split at h
  · cases h
  · rename_i c cs
    split at h
    · rename_i hc; subst hc
      split at h
      · cases h
      · rename_i d ds
        split at h
        · split at h
          · cases h
          · split at h <;> cases h
        · split at h
          · rename_i hd; subst hd
            obtain ⟨r', hr, e⟩ := Option.map_eq_some_iff.1 h
            simp only [Prod.mk.injEq, true_and] at e
            subst e
            obtain ⟨t, ht, rfl⟩ := inst_iff.1 hr
            exact ⟨'<' :: '?' :: t, rfl, ht⟩
          · split at h
            · rename_i hd; subst hd
              unfold pBang at h
              split at h
              · cases h
              · rename_i e r₁
                split at h
                · rename_i he; subst he
                  split at h
                  · rename_i r₂
                    split at h
                    · rename_i b r₃ hcut
                      simp only [Option.some.injEq, Prod.mk.injEq, true_and] at h
                      subst h
                      obtain ⟨rfl, hu⟩ := (cutAt_iff (by simp)).1 hcut
                      exact ⟨_, by simp, .comment hu⟩
                    · cases h
                  · cases h
                · rename_i he1
                  split at h
                  · split at h
                    · cases h
                    · split at h
                      · cases h
                      · split at h <;> cases h
                  · rename_i he2
                    obtain ⟨r', hr, e⟩ := Option.map_eq_some_iff.1 h
                    simp only [Prod.mk.injEq, true_and] at e
                    subst e
                    obtain ⟨t, rfl, ht⟩ := directive_sound hr
                    exact ⟨_, by simp, .directive he1 he2 ht⟩
            · split at h
              · cases h
              · obtain ⟨_, _, e⟩ := Option.map_eq_some_iff.1 h; cases e
    · split at h
      · cases h
      · obtain ⟨_, _, e⟩ := Option.map_eq_some_iff.1 h; cases e

theorem token_misc {t r : List Char} (h : Misc t) : token (t ++ r) = some (.misc, r) := by
  cases h with
  | @comment b hu =>
    have hc : cutAt ['-', '-'] (b ++ (['-', '-'] ++ '>' :: r)) = some (b, '>' :: r) :=
      (cutAt_iff (by simp)).2 ⟨rfl, hu⟩
    simp only [List.cons_append, List.append_assoc, List.nil_append] at hc ⊢
    unfold token
    simp only [if_true, show ¬ '!' = '/' by decide, show ¬ '!' = '?' by decide, if_false]
    unfold pBang
    simp only [if_true, hc]
  | @inst n w b h1 h2 h3 hw hb hu hd =>
    have : pInst (n ++ (w ++ (b ++ ['?', '>'])) ++ r) = some r :=
      inst_iff.2 ⟨_, .inst h1 h2 h3 hw hb hu hd, rfl⟩
    simp only [List.cons_append]
    unfold token
    simp only [if_true, show ¬ '?' = '/' by decide, if_false, this]
    rfl
  | @directive c t h1 h2 h3 =>
    simp only [List.cons_append]
    unfold token
    simp only [if_true, show ¬ '!' = '/' by decide, show ¬ '!' = '?' by decide, if_false]
    unfold pBang
    simp only [if_neg h1, if_neg h2]
    rw [directive_complete h3 (by simp; omega)]
    rfl

theorem token_stop_sound {cs r : List Char} {n : QName} (h : token cs = some (.stop n, r)) :
    ∃ t, cs = t ++ r ∧ EndTag t n := by
  unfold token at h
  split at h
  · cases h
  · rename_i c cs
    split at h
    · rename_i hc; subst hc
      split at h
      · cases h
      · rename_i d ds
        split at h
        · rename_i hd; subst hd
          split at h
          · cases h
          · rename_i q r₁ hq
            obtain ⟨m, rfl, hm, -⟩ := pQName_iff.1 hq
            split at h
            · rename_i r₂ hs
              obtain ⟨⟨w, hw, rfl⟩, -⟩ := skipSpace_iff.1 hs
              simp only [Option.some.injEq, Prod.mk.injEq, Tok.stop.injEq] at h
              obtain ⟨rfl, rfl⟩ := h
              exact ⟨_, by simp, .mk hm hw⟩
            · cases h
        · split at h
          · obtain ⟨_, _, e⟩ := Option.map_eq_some_iff.1 h; cases e
          · split at h
            · unfold pBang at h
              split at h
              · cases h
              · split at h
                · split at h
                  · split at h <;> cases h
                  · cases h
                · split at h
                  · split at h
                    · cases h
                    · split at h
                      · cases h
                      · split at h <;> cases h
                  · obtain ⟨_, _, e⟩ := Option.map_eq_some_iff.1 h; cases e
            · split at h
              · cases h
              · obtain ⟨_, _, e⟩ := Option.map_eq_some_iff.1 h; cases e
    · split at h
      · cases h
      · obtain ⟨_, _, e⟩ := Option.map_eq_some_iff.1 h; cases e

theorem token_stop {t r : List Char} {n : QName} (h : EndTag t n) : token (t ++ r) = some (.stop n, r) := by
  cases h with
  | @mk m w n hm hw =>
    have hq : pQName (m ++ (w ++ '>' :: r)) = some (n, w ++ '>' :: r) :=
      pQName_iff.2 ⟨m, rfl, hm, nameEnds_blank hw (by decide)⟩
    have hs : skipSpace (w ++ '>' :: r) = '>' :: r := skipSpace_iff.2 ⟨⟨w, hw, rfl⟩, blankEnds_cons (by decide)⟩
    simp only [List.cons_append, List.append_assoc, List.nil_append]
    unfold token
    simp only [if_true, hq, hs]

theorem token_start_sound {cs r : List Char} {n : QName} {as : List (QName × List Char)} {e : Bool}
    (h : token cs = some (.start n as e, r)) : ∃ t, cs = t ++ r ∧ StartTag t n as e := by
  unfold token at h
  split at h
  · cases h
  · rename_i c cs
    split at h
    · rename_i hc; subst hc
      split at h
      · cases h
      · rename_i d ds
        split at h
        · split at h
          · cases h
          · split at h <;> cases h
        · split at h
          · obtain ⟨_, _, e⟩ := Option.map_eq_some_iff.1 h; cases e
          · split at h
            · unfold pBang at h
              split at h
              · cases h
              · split at h
                · split at h
                  · split at h <;> cases h
                  · cases h
                · split at h
                  · split at h
                    · cases h
                    · split at h
                      · cases h
                      · split at h <;> cases h
                  · obtain ⟨_, _, e⟩ := Option.map_eq_some_iff.1 h; cases e
            · split at h
              · cases h
              · rename_i q r₁ hq
                obtain ⟨m, hm, hN, hE⟩ := pQName_iff.1 hq
                obtain ⟨⟨as', e', r'⟩, ha, e⟩ := Option.map_eq_some_iff.1 h
                simp only [Prod.mk.injEq, Tok.start.injEq] at e
                obtain ⟨⟨rfl, rfl, rfl⟩, rfl⟩ := e
                obtain ⟨t, rfl, ht⟩ := attrs_sound ha
                rw [hm]
                refine ⟨'<' :: (m ++ t), by simp, .mk hN ?_ ht⟩
                obtain ⟨c, l, e, hc⟩ := hE
                cases t with
                | nil => generalize hx : ([] : List Char) = x at ht; cases ht <;> simp at hx
                | cons x t =>
                  simp only [List.cons_append, List.cons.injEq] at e
                  exact ⟨x, t, rfl, e.1 ▸ hc⟩
    · split at h
      · cases h
      · obtain ⟨_, _, e⟩ := Option.map_eq_some_iff.1 h; cases e

theorem token_start {t r : List Char} {n : QName} {as : List (QName × List Char)} {e : Bool}
    (h : StartTag t n as e) : token (t ++ r) = some (.start n as e, r) := by
  cases h with
  | @mk m t n as e hm hE ha =>
    obtain ⟨c, m', rfl, -, h1, -, h2, h3⟩ := name_shape hm
    have hq : pQName (c :: (m' ++ (t ++ r))) = some (n, t ++ r) := by
      refine pQName_iff.2 ⟨c :: m', by simp, hm, ?_⟩
      obtain ⟨d, l, rfl, hd⟩ := hE
      exact ⟨d, l ++ r, rfl, hd⟩
    simp only [List.cons_append, List.append_assoc]
    unfold token
    simp only [if_true, if_neg h1, if_neg h2, if_neg h3, hq]
    rw [attrs_complete ha (by simp; omega)]
    rfl

theorem token_shrinks {cs r : List Char} {t : Tok} (h : token cs = some (t, r)) : r.length < cs.length := by
  cases t with
  | start n as e =>
    obtain ⟨t, rfl, ht⟩ := token_start_sound h
    cases ht; simp; omega
  | stop n =>
    obtain ⟨t, rfl, ht⟩ := token_stop_sound h
    cases ht; simp; omega
  | text s =>
    obtain ⟨t, rfl, ht⟩ := token_text_sound h
    rcases ht with ⟨⟨h1, -⟩, -⟩ | ht
    · have := List.length_pos_iff.2 h1
      simp; omega
    · cases ht; simp; omega
  | misc =>
    obtain ⟨t, rfl, ht⟩ := token_misc_sound h
    cases ht <;> simp <;> omega

/-! ### Contents -/

theorem kids_sound : ∀ {f : Nat} {cs r : List Char} {ks : List Xml} {n : QName},
    pKids f cs = some (ks, n, r) → ∃ b e, cs = b ++ (e ++ r) ∧ Content b ks ∧ EndTag e n
  | 0, _, _, _, _, h => by simp [pKids] at h
  | f + 1, cs, r, ks, n, h => by
    simp only [pKids] at h
    split at h
    · cases h
    · rename_i r₁ ht
      obtain ⟨t, rfl, hm⟩ := token_misc_sound ht
      obtain ⟨b, e, rfl, hb, he⟩ := kids_sound h
      exact ⟨t ++ b, e, by simp, .misc hm hb, he⟩
    · rename_i s r₁ ht
      obtain ⟨⟨ks', n', r'⟩, hk, e⟩ := Option.map_eq_some_iff.1 h
      simp only [Prod.mk.injEq] at e
      obtain ⟨rfl, rfl, rfl⟩ := e
      obtain ⟨t, rfl, hm⟩ := token_text_sound ht
      obtain ⟨b, e, rfl, hb, he⟩ := kids_sound hk
      rcases hm with ⟨hm, hr⟩ | hm
      · refine ⟨t ++ b, e, by simp, .text hm ?_ hb, he⟩
        rintro c l rfl
        exact hr c (l ++ (e ++ r')) rfl
      · exact ⟨t ++ b, e, by simp, .cdata hm hb, he⟩
    · rename_i m r₁ ht
      simp only [Option.some.injEq, Prod.mk.injEq] at h
      obtain ⟨rfl, rfl, rfl⟩ := h
      obtain ⟨t, rfl, hm⟩ := token_stop_sound ht
      exact ⟨[], t, by simp, .nil, hm⟩
    · rename_i m as r₁ ht
      obtain ⟨⟨ks', n', r'⟩, hk, e⟩ := Option.map_eq_some_iff.1 h
      simp only [Prod.mk.injEq] at e
      obtain ⟨rfl, rfl, rfl⟩ := e
      obtain ⟨t, rfl, hm⟩ := token_start_sound ht
      obtain ⟨b, e, rfl, hb, he⟩ := kids_sound hk
      exact ⟨t ++ b, e, by simp, .empty hm hb, he⟩
    · rename_i m as r₁ ht
      obtain ⟨t, rfl, hm⟩ := token_start_sound ht
      split at h
      · cases h
      · rename_i ls m' r₂ hk₁
        obtain ⟨b₁, e₁, rfl, hb₁, he₁⟩ := kids_sound hk₁
        split at h
        · rename_i hmm; subst hmm
          obtain ⟨⟨ks', n', r'⟩, hk, e⟩ := Option.map_eq_some_iff.1 h
          simp only [Prod.mk.injEq] at e
          obtain ⟨rfl, rfl, rfl⟩ := e
          obtain ⟨b, e, rfl, hb, he⟩ := kids_sound hk
          exact ⟨t ++ (b₁ ++ (e₁ ++ b)), e, by simp, .elem hm hb₁ he₁ hb, he⟩
        · cases h

theorem kids_mono : ∀ {f g : Nat} {cs : List Char} {p : List Xml × QName × List Char},
    pKids f cs = some p → f ≤ g → pKids g cs = some p
  | 0, _, _, _, h, _ => by simp [pKids] at h
  | f + 1, 0, _, _, _, hg => by omega
  | f + 1, g + 1, cs, p, h, hg => by
    have hg : f ≤ g := by omega
    simp only [pKids] at h ⊢
    split at h
    · cases h
    · exact kids_mono h hg
    · obtain ⟨q, hk, rfl⟩ := Option.map_eq_some_iff.1 h
      rw [kids_mono hk hg]; rfl
    · exact h
    · obtain ⟨q, hk, rfl⟩ := Option.map_eq_some_iff.1 h
      rw [kids_mono hk hg]; rfl
    · split at h
      · cases h
      · rename_i ls m' r₂ hk₁
        rw [kids_mono hk₁ hg]
        split at h
        · rename_i hmm
          simp only [if_pos hmm]
          obtain ⟨q, hk, rfl⟩ := Option.map_eq_some_iff.1 h
          rw [kids_mono hk hg]; rfl
        · cases h

/-- Once the fuel exceeds the length of the text, more of it changes nothing. -/
theorem kids_fuel : ∀ {f g : Nat} {cs : List Char}, cs.length < f → cs.length < g → pKids f cs = pKids g cs
  | 0, _, _, h, _ => by omega
  | _ + 1, 0, _, _, h => by omega
  | f + 1, g + 1, cs, hf, hg => by
    simp only [pKids]
    cases ht : token cs with
    | none => rfl
    | some p =>
      obtain ⟨t, r⟩ := p
      have hr := token_shrinks ht
      have ih : pKids f r = pKids g r := kids_fuel (by omega) (by omega)
      cases t with
      | misc => exact ih
      | text s => simp only [ih]
      | stop n => rfl
      | start n as e =>
        cases e with
        | true => simp only [ih]
        | false =>
          simp only [ih]
          cases hk : pKids g r with
          | none => rfl
          | some q =>
            obtain ⟨ks, m, r'⟩ := q
            simp only
            split
            · obtain ⟨b, e, rfl, -, -⟩ := kids_sound hk
              have : pKids f r' = pKids g r' := kids_fuel (by simp at hr; omega) (by simp at hr; omega)
              rw [this]
            · rfl

theorem kids_complete {b : List Char} {ks : List Xml} (h : Content b ks) :
    ∀ {tail : List Char} {ls : List Xml} {n : QName} {r : List Char} {g : Nat}, TextEnds tail →
      pKids g tail = some (ls, n, r) → ∃ f, pKids f (b ++ tail) = some (ks ++ ls, n, r) := by
  induction h with
  | nil => intro tail ls n r g _ h; exact ⟨g, h⟩
  | @text t s b ks ht he _ ih =>
    intro tail ls n r g hte h
    obtain ⟨f, hf⟩ := ih hte h
    refine ⟨f + 1, ?_⟩
    have : TextEnds (b ++ tail) := by
      cases b with
      | nil => exact hte
      | cons c b =>
        intro d l e
        simp only [List.cons_append, List.cons.injEq] at e
        rw [← e.1]; exact he c b rfl
    simp only [pKids, List.append_assoc, token_text ht this, hf]
    rfl
  | @cdata t s b ks ht _ ih =>
    intro tail ls n r g hte h
    obtain ⟨f, hf⟩ := ih hte h
    refine ⟨f + 1, ?_⟩
    simp only [pKids, List.append_assoc, token_cdata ht, hf]
    rfl
  | @misc t b ks ht _ ih =>
    intro tail ls n r g hte h
    obtain ⟨f, hf⟩ := ih hte h
    refine ⟨f + 1, ?_⟩
    simp only [pKids, List.append_assoc, token_misc ht, hf]
  | @empty t b n as ks ht _ ih =>
    intro tail ls m r g hte h
    obtain ⟨f, hf⟩ := ih hte h
    refine ⟨f + 1, ?_⟩
    simp only [pKids, List.append_assoc, token_start ht, hf]
    rfl
  | @elem t b₁ e b n as ls₁ ks ht _ he _ ih₁ ih =>
    intro tail ls m r g hte h
    obtain ⟨f, hf⟩ := ih hte h
    have h₁ : pKids 1 (e ++ (b ++ tail)) = some ([], n, b ++ tail) := by
      simp only [pKids, token_stop he]
    have hte₁ : TextEnds (e ++ (b ++ tail)) := by
      cases he
      intro d l e
      simp only [List.cons_append, List.cons.injEq] at e
      exact e.1.symm
    obtain ⟨f₁, hf₁⟩ := ih₁ hte₁ h₁
    refine ⟨max f f₁ + 1, ?_⟩
    simp only [pKids, List.append_assoc, token_start ht, kids_mono hf₁ (Nat.le_max_right f f₁),
      kids_mono hf (Nat.le_max_left f f₁), if_true, Option.map_some, List.append_nil]
    rfl

/-- The content of an element is read as the grammar says, given enough fuel. -/
theorem kids_iff {f : Nat} {cs r : List Char} {ks : List Xml} {n : QName} (hf : cs.length < f) :
    pKids f cs = some (ks, n, r) ↔ ∃ b e, cs = b ++ (e ++ r) ∧ Content b ks ∧ EndTag e n := by
  constructor
  · exact kids_sound
  · rintro ⟨b, e, rfl, hb, he⟩
    have h₁ : pKids 1 (e ++ r) = some ([], n, r) := by
      simp only [pKids, token_stop he]
    have hte₁ : TextEnds (e ++ r) := by
      cases he
      intro d l e
      simp only [List.cons_append, List.cons.injEq] at e
      exact e.1.symm
    obtain ⟨g, hg⟩ := kids_complete hb hte₁ h₁
    rw [List.append_nil] at hg
    have : pKids (max f g) (b ++ (e ++ r)) = some (ks, n, r) := kids_mono hg (Nat.le_max_right f g)
    rw [kids_fuel hf (Nat.lt_of_lt_of_le hf (Nat.le_max_left f g))]
    exact this

/-! ### Documents -/

omit [XmlLang] in
theorem lastAttr_none {n : QName} {as : List (QName × List Char)} :
    lastAttr n as = none ↔ ∀ a ∈ as, a.1 ≠ n := by
  induction as with
  | nil => simp [lastAttr]
  | cons a as ih =>
    simp only [lastAttr, List.mem_cons, forall_eq_or_imp]
    cases hl : lastAttr n as with
    | some v =>
      rw [hl] at ih
      simp only [reduceCtorEq, false_iff] at ih ⊢
      exact fun h => ih h.2
    | none =>
      rw [hl] at ih
      simp only [true_iff] at ih
      simp only
      split
      · rename_i h; simp [h]
      · rename_i h; simp only [true_iff]; exact ⟨h, ih⟩

omit [XmlLang] in
theorem lastAttr_some {n : QName} {as : List (QName × List Char)} :
    ∀ {v : List Char}, lastAttr n as = some v ↔ Declares as n v := by
  induction as with
  | nil =>
    intro v
    simp only [lastAttr]
    constructor
    · intro h; cases h
    · intro h
      generalize hx : ([] : List (QName × List Char)) = x at h
      cases h; simp at hx
  | cons a as ih =>
    intro v
    simp only [lastAttr]
    constructor
    · intro h
      split at h
      · rename_i v' hv
        simp only [Option.some.injEq] at h; subst h
        cases ih.1 hv with
        | @mk as bs _ _ hb => exact .mk (as := a :: as) hb
      · rename_i hv
        split at h
        · rename_i ha
          simp only [Option.some.injEq] at h
          obtain ⟨a1, a2⟩ := a
          simp only at ha h
          subst ha; subst h
          exact .mk (as := []) (lastAttr_none.1 hv)
        · cases h
    · intro h
      generalize hx : a :: as = x at h
      cases h with
      | @mk as' bs _ _ hb =>
        cases as' with
        | nil =>
          simp only [List.nil_append, List.cons.injEq] at hx
          obtain ⟨rfl, rfl⟩ := hx
          simp [lastAttr_none.2 hb]
        | cons c as' =>
          simp only [List.cons_append, List.cons.injEq] at hx
          obtain ⟨rfl, rfl⟩ := hx
          rw [ih.2 (.mk hb)]

omit [XmlLang] in
/-- The name space of the root element. -/
theorem rootSpace_iff {n : QName} {as : List (QName × List Char)} {v : List Char} :
    rootSpace n as = v ↔ Space n as v := by
  have hx : "xmlns".toList ≠ [] := by decide
  constructor
  · rintro rfl
    unfold rootSpace
    split
    · rename_i h; rw [h]; exact .xmlns h
    · rename_i h
      split
      · rename_i h0
        split
        · rename_i h1
          obtain ⟨p, l⟩ := n
          simp only at h0 h1
          subst h0; subst h1
          exact .xmlnsElem rfl
        · rename_i h1
          cases hl : lastAttr ⟨[], "xmlns".toList⟩ as with
          | none => exact .noDefault h0 h1 (lastAttr_none.1 hl)
          | some v => exact .default h0 h1 (lastAttr_some.1 hl)
      · rename_i h0
        simp only
        cases hl : lastAttr ⟨"xmlns".toList, if n.pre = "xml".toList then
            "http://www.w3.org/XML/1998/namespace".toList else n.pre⟩ as with
        | none => exact .noPref h0 h rfl (lastAttr_none.1 hl)
        | some v => exact .pref h0 h rfl (lastAttr_some.1 hl)
  · intro h
    cases h with
    | xmlns h => simp only [rootSpace, if_pos h]; exact h
    | xmlnsElem h => subst h; simp [rootSpace]
    | default h0 h1 h2 =>
      simp only [rootSpace, h0, if_neg hx.symm, if_neg h1, if_true, lastAttr_some.2 h2, Option.getD_some]
    | noDefault h0 h1 h2 =>
      simp only [rootSpace, h0, if_neg hx.symm, if_neg h1, if_true, lastAttr_none.2 h2, Option.getD_none]
    | pref h0 h1 h2 h3 =>
      subst h2
      simp only [rootSpace, if_neg h0, if_neg h1, lastAttr_some.2 h3, Option.getD_some]
    | noPref h0 h1 h2 h3 =>
      subst h2
      simp only [rootSpace, if_neg h0, if_neg h1, lastAttr_none.2 h3, Option.getD_none]

theorem root_sound : ∀ {f : Nat} {cs : List Char} {d : XmlDoc}, pRoot f cs = some d → Document cs d
  | 0, _, _, h => by simp [pRoot] at h
  | f + 1, cs, d, h => by
    simp only [pRoot] at h
    split at h
    · cases h
    · rename_i r ht
      obtain ⟨t, rfl, hm⟩ := token_misc_sound ht
      cases root_sound h with
      | @empty p t' r' n as v hp hs hv =>
        rw [← List.append_assoc]; exact .empty (.misc hm hp) hs hv
      | @elem p t' b e r' n as v ks hp hs hb he hv =>
        rw [← List.append_assoc]; exact .elem (.misc hm hp) hs hb he hv
    · rename_i s r ht
      obtain ⟨t, rfl, hm⟩ := token_text_sound ht
      cases root_sound h with
      | @empty p t' r' n as v hp hs hv =>
        rw [← List.append_assoc]
        rcases hm with ⟨hm, he⟩ | hm
        · refine .empty (.text hm ?_ hp) hs hv
          rintro c l rfl
          exact he c _ rfl
        · exact .empty (.cdata hm hp) hs hv
      | @elem p t' b e r' n as v ks hp hs hb he hv =>
        rw [← List.append_assoc]
        rcases hm with ⟨hm, hte⟩ | hm
        · refine .elem (.text hm ?_ hp) hs hb he hv
          rintro c l rfl
          exact hte c _ rfl
        · exact .elem (.cdata hm hp) hs hb he hv
    · cases h
    · rename_i n as r ht
      obtain ⟨t, rfl, hm⟩ := token_start_sound ht
      simp only [Option.some.injEq] at h
      subst h
      exact .empty (p := []) .nil hm (rootSpace_iff.1 rfl)
    · rename_i n as r ht
      obtain ⟨t, rfl, hm⟩ := token_start_sound ht
      split at h
      · cases h
      · rename_i ks m r' hk
        obtain ⟨b, e, rfl, hb, he⟩ := kids_sound hk
        split at h
        · rename_i hmm; subst hmm
          simp only [Option.some.injEq] at h
          subst h
          exact .elem (p := []) .nil hm hb he (rootSpace_iff.1 rfl)
        · cases h

theorem root_complete {p : List Char} (hp : Prolog p) : ∀ {f : Nat} {cs : List Char} {d : XmlDoc},
    TextEnds cs → pRoot f cs = some d → pRoot (f + p.length) (p ++ cs) = some d := by
  have mono : ∀ {f : Nat} {cs : List Char} {d : XmlDoc}, pRoot f cs = some d → pRoot (f + 1) cs = some d := by
    intro f
    induction f with
    | zero => intro cs d h; simp [pRoot] at h
    | succ f ih =>
      intro cs d h
      rw [pRoot] at h ⊢
      split at h
      · cases h
      · exact ih h
      · exact ih h
      · cases h
      · exact h
      · split at h
        · cases h
        · rename_i hk
          rw [kids_mono hk (Nat.le_succ _)]
          exact h
  have mono' : ∀ {k f : Nat} {cs : List Char} {d : XmlDoc}, pRoot f cs = some d → pRoot (f + k) cs = some d := by
    intro k
    induction k with
    | zero => intro f cs d h; exact h
    | succ k ih => intro f cs d h; exact mono (ih h)
  induction hp with
  | nil => intro f cs d _ h; exact h
  | @text t s p ht he _ ih =>
    intro f cs d hte h
    have hpos := List.length_pos_iff.2 ht.1
    have : TextEnds (p ++ cs) := by
      cases p with
      | nil => exact hte
      | cons c b =>
        intro d l e
        simp only [List.cons_append, List.cons.injEq] at e
        rw [← e.1]; exact he c b rfl
    have key : pRoot (f + p.length + 1) (t ++ (p ++ cs)) = some d := by
      simp only [pRoot, token_text ht this]
      exact ih hte h
    have := mono' (k := t.length - 1) key
    rw [List.append_assoc, show f + (t ++ p).length = f + p.length + 1 + (t.length - 1) by simp; omega]
    exact this
  | @cdata t s p ht _ ih =>
    intro f cs d hte h
    have hpos : 0 < t.length := by cases ht; simp
    have key : pRoot (f + p.length + 1) (t ++ (p ++ cs)) = some d := by
      simp only [pRoot, token_cdata ht]
      exact ih hte h
    have := mono' (k := t.length - 1) key
    rw [List.append_assoc, show f + (t ++ p).length = f + p.length + 1 + (t.length - 1) by simp; omega]
    exact this
  | @misc t p ht _ ih =>
    intro f cs d hte h
    have hpos : 0 < t.length := by cases ht <;> simp
    have key : pRoot (f + p.length + 1) (t ++ (p ++ cs)) = some d := by
      simp only [pRoot, token_misc ht]
      exact ih hte h
    have := mono' (k := t.length - 1) key
    rw [List.append_assoc, show f + (t ++ p).length = f + p.length + 1 + (t.length - 1) by simp; omega]
    exact this

theorem startTag_textEnds {t r : List Char} {n : QName} {as : List (QName × List Char)} {e : Bool}
    (h : StartTag t n as e) : TextEnds (t ++ r) := by
  cases h
  intro d l e
  simp only [List.cons_append, List.cons.injEq] at e
  exact e.1.symm

/-- A text is read as a document if and only if the grammar says so. -/
theorem parse_iff {cs : List Char} {d : XmlDoc} : parse cs = some d ↔ Document cs d := by
  constructor
  · exact root_sound
  · intro h
    cases h with
    | @empty p t r n as v hp hs hv =>
      have : pRoot ((t ++ r).length + 1) (t ++ r) =
          some ⟨String.ofList v, .elem (String.ofList n.loc) (localAttrs as) []⟩ := by
        simp only [pRoot, token_start hs, rootSpace_iff.2 hv]
      have := root_complete hp (startTag_textEnds hs) this
      unfold parse
      rw [show (p ++ (t ++ r)).length + 1 = (t ++ r).length + 1 + p.length by simp; omega]
      exact this
    | @elem p t b e r n as v ks hp hs hb he hv =>
      have : pRoot ((t ++ (b ++ (e ++ r))).length + 1) (t ++ (b ++ (e ++ r))) =
          some ⟨String.ofList v, .elem (String.ofList n.loc) (localAttrs as) ks⟩ := by
        have hpos : 0 < t.length := by cases hs; simp
        have hk : pKids (t ++ (b ++ (e ++ r))).length (b ++ (e ++ r)) = some (ks, n, r) :=
          (kids_iff (by simp; omega)).2 ⟨b, e, rfl, hb, he⟩
        simp only [pRoot, token_start hs, hk, if_true, rootSpace_iff.2 hv]
      have := root_complete hp (startTag_textEnds hs) this
      unfold parse
      rw [show (p ++ (t ++ (b ++ (e ++ r)))).length + 1 = (t ++ (b ++ (e ++ r))).length + 1 + p.length by simp; omega]
      exact this

end Verif.XmlText
