import Verif.Spec.Reader
import Verif.Json.TextLaws
import Verif.Xml.TextLaws
import Verif.Proofs.Utf8

/-!
# Where documents end, and what decoders take from readers
-/

set_option linter.unusedSectionVars false

namespace Verif

/-! ## Readers -/

namespace Reader

theorem delivers_total : ∀ ps : List Piece, ∃ t e, Delivers ps t e
  | [] => ⟨_, _, .done⟩
  | ⟨t, none⟩ :: ps => by
    obtain ⟨s, e, h⟩ := delivers_total ps
    exact ⟨_, _, .more h⟩
  | ⟨_, some .eof⟩ :: _ => ⟨_, _, .eof⟩
  | ⟨_, some (.fail _)⟩ :: _ => ⟨_, _, .fail⟩

theorem delivers_unique {ps : List Piece} {t t' : List UInt8} {e e' : Option String} (h : Delivers ps t e)
    (h' : Delivers ps t' e') : t = t' ∧ e = e' := by
  induction h generalizing t' e' with
  | done => cases h'; exact ⟨rfl, rfl⟩
  | eof => cases h'; exact ⟨rfl, rfl⟩
  | fail => cases h'; exact ⟨rfl, rfl⟩
  | more _ ih =>
    cases h' with
    | more h' => obtain ⟨rfl, rfl⟩ := ih h'; exact ⟨rfl, rfl⟩

theorem delivers_flawless : ∀ {ps : List Piece}, Flawless ps → Delivers ps (textOf ps) none
  | [], _ => .done
  | ⟨t, err⟩ :: ps, h => by
    have : err = none := h _ List.mem_cons_self
    subst this
    exact .more (delivers_flawless fun p hp => h p (List.mem_cons_of_mem _ hp))

theorem delivers_append {ps qs : List Piece} {t : List UInt8} {e : Option String} (h : Flawless ps)
    (hq : Delivers qs t e) : Delivers (ps ++ qs) (textOf ps ++ t) e := by
  induction ps with
  | nil => exact hq
  | cons p ps ih =>
    obtain ⟨u, err⟩ := p
    have : err = none := h _ List.mem_cons_self
    subst this
    have := Delivers.more (t := u) (ih fun p hp => h p (List.mem_cons_of_mem _ hp))
    simpa [textOf, List.append_assoc] using this

theorem readAll_of_delivers {ps : List Piece} {t : List UInt8} {e : Option String} (h : Delivers ps t e) :
    (readAll ps).1 = e.elim (.ok t) .error := by
  induction h with
  | done => rfl
  | eof => rfl
  | fail => rfl
  | @more t s e ps _ ih =>
    simp only [readAll, ih]
    cases e <;> rfl

end Reader

/-! ## Where an XML document ends -/

namespace XmlText

open XmlGrammar

variable [XmlLang]

theorem document_iff_whole {t : List Char} {d : XmlDoc} : Document t d ↔ ∃ s r, t = s ++ r ∧ Whole s d := by
  constructor
  · intro h
    cases h with
    | @empty p t r n as v hp hs hv => exact ⟨_, r, by simp, .empty hp hs hv⟩
    | @elem p t b e r n as v ks hp hs hb he hv => exact ⟨_, r, by simp, .elem hp hs hb he hv⟩
  · rintro ⟨s, r, rfl, h⟩
    cases h with
    | empty hp hs hv => rw [List.append_assoc]; exact .empty hp hs hv
    | elem hp hs hb he hv =>
      rw [List.append_assoc, List.append_assoc, List.append_assoc]
      exact .elem hp hs hb he hv

/-- A document may be followed by anything. -/
theorem parse_append {t : List Char} {d : XmlDoc} (h : parse t = some d) (u : List Char) : parse (t ++ u) = some d := by
  obtain ⟨s, r, rfl, hs⟩ := document_iff_whole.1 (parse_iff.1 h)
  exact parse_iff.2 (document_iff_whole.2 ⟨s, r ++ u, by simp, hs⟩)

theorem parse_nil : parse [] = none := rfl

/-- What follows the first element. -/
def afterRoot : Nat → List Char → Option (List Char)
  | 0, _ => none
  | f + 1, cs =>
    match token cs with
    | none => none
    | some (.misc, r) => afterRoot f r
    | some (.text _, r) => afterRoot f r
    | some (.stop _, _) => none
    | some (.start _ _ true, r) => some r
    | some (.start _ _ false, r) => (pKids f r).map fun p => p.2.2

theorem afterRoot_succ : ∀ {f : Nat} {cs r : List Char}, afterRoot f cs = some r → afterRoot (f + 1) cs = some r
  | 0, _, _, h => by simp [afterRoot] at h
  | f + 1, cs, r, h => by
    rw [afterRoot] at h ⊢
    split at h
    · cases h
    · exact afterRoot_succ h
    · exact afterRoot_succ h
    · cases h
    · exact h
    · cases hk : pKids f _ with
      | none => rw [hk] at h; cases h
      | some p => rw [hk] at h; rw [kids_mono hk (Nat.le_succ _)]; exact h

theorem afterRoot_add {f : Nat} {cs r : List Char} (h : afterRoot f cs = some r) :
    ∀ k, afterRoot (f + k) cs = some r
  | 0 => h
  | k + 1 => afterRoot_succ (afterRoot_add h k)

theorem afterRoot_prolog {p : List Char} (hp : Prolog p) : ∀ {f : Nat} {cs r : List Char},
    TextEnds cs → afterRoot f cs = some r → ∃ g, afterRoot g (p ++ cs) = some r := by
  induction hp with
  | nil => intro f cs r _ h; exact ⟨f, h⟩
  | @text t s p ht he _ ih =>
    intro f cs r hte h
    obtain ⟨g, hg⟩ := ih hte h
    have : TextEnds (p ++ cs) := by
      cases p with
      | nil => exact hte
      | cons c b =>
        intro d l e
        simp only [List.cons_append, List.cons.injEq] at e
        rw [← e.1]; exact he c b rfl
    refine ⟨g + 1, ?_⟩
    rw [List.append_assoc]
    simp only [afterRoot, token_text ht this]
    exact hg
  | @cdata t s p ht _ ih =>
    intro f cs r hte h
    obtain ⟨g, hg⟩ := ih hte h
    refine ⟨g + 1, ?_⟩
    rw [List.append_assoc]
    simp only [afterRoot, token_cdata ht]
    exact hg
  | @misc t p ht _ ih =>
    intro f cs r hte h
    obtain ⟨g, hg⟩ := ih hte h
    refine ⟨g + 1, ?_⟩
    rw [List.append_assoc]
    simp only [afterRoot, token_misc ht]
    exact hg

theorem afterRoot_whole {s : List Char} {d : XmlDoc} (h : Whole s d) (r : List Char) :
    ∃ f, afterRoot f (s ++ r) = some r := by
  cases h with
  | @empty p t n as v hp hs hv =>
    rw [List.append_assoc]
    refine afterRoot_prolog hp (f := 1) (startTag_textEnds hs) ?_
    simp only [afterRoot, token_start hs]
  | @elem p t b e n as v ks hp hs hb he hv =>
    rw [List.append_assoc, List.append_assoc, List.append_assoc]
    refine afterRoot_prolog hp (f := (b ++ (e ++ r)).length + 1 + 1) (startTag_textEnds hs) ?_
    have hk : pKids ((b ++ (e ++ r)).length + 1) (b ++ (e ++ r)) = some (ks, n, r) :=
      (kids_iff (Nat.lt_succ_self _)).2 ⟨b, e, rfl, hb, he⟩
    rw [afterRoot]
    simp only [token_start hs, hk, Option.map_some]

/-- A text begins with one document that ends with its root element, at most. -/
theorem whole_unique {s s' r r' : List Char} {d d' : XmlDoc} (h : Whole s d) (h' : Whole s' d')
    (e : s ++ r = s' ++ r') : s = s' ∧ r = r' ∧ d = d' := by
  obtain ⟨f, hf⟩ := afterRoot_whole h r
  obtain ⟨g, hg⟩ := afterRoot_whole h' r'
  have h1 := afterRoot_add hf g
  have h2 := afterRoot_add hg f
  rw [e, Nat.add_comm] at h1
  rw [h1] at h2
  have hr : r = r' := Option.some.inj h2
  subst hr
  have hs := List.append_cancel_right e
  subst hs
  have p1 := parse_iff.2 (document_iff_whole.2 ⟨s, [], (List.append_nil s).symm, h⟩)
  have p2 := parse_iff.2 (document_iff_whole.2 ⟨s, [], (List.append_nil s).symm, h'⟩)
  rw [p1] at p2
  exact ⟨rfl, rfl, Option.some.inj p2⟩

/-- A document that ends with its root element is none without its last characters. -/
theorem whole_cut {t u : List Char} {d : XmlDoc} (h : Whole (t ++ u) d) (hu : u ≠ []) : parse t = none := by
  cases hp : parse t with
  | none => rfl
  | some d' =>
    obtain ⟨s, r, rfl, hs⟩ := document_iff_whole.1 (parse_iff.1 hp)
    have := (whole_unique (r := []) (r' := r ++ u) h hs (by simp)).2.1
    have := congrArg List.length this
    simp only [List.length_nil, List.length_append] at this
    exact absurd (List.length_eq_zero_iff.1 (by omega)) hu

theorem whole_parse {s : List Char} {d : XmlDoc} (h : Whole s d) (r : List Char) : parse (s ++ r) = some d :=
  parse_iff.2 (document_iff_whole.2 ⟨s, r, rfl, h⟩)

theorem attrs_end {t : List Char} {as : List (QName × List Char)} {e : Bool} (h : Attrs t as e) :
    ∃ p, t = p ++ ['>'] := by
  induction h with
  | @close w _ => exact ⟨w, rfl⟩
  | @closeEmpty w _ => exact ⟨w ++ ['/'], by simp⟩
  | attr _ _ _ _ _ _ ih =>
    obtain ⟨p, rfl⟩ := ih
    exact ⟨_, by simp only [← List.append_assoc, ← List.cons_append]; rfl⟩

theorem whole_end {s : List Char} {d : XmlDoc} (h : Whole s d) : ∃ p, s = p ++ ['>'] := by
  cases h with
  | empty hp hs hv =>
    cases hs with
    | mk _ _ ha =>
      obtain ⟨p, rfl⟩ := attrs_end ha
      exact ⟨_, by simp only [← List.append_assoc, ← List.cons_append]; rfl⟩
  | elem hp hs hb he hv =>
    cases he with
    | mk _ _ => exact ⟨_, by simp only [← List.append_assoc, ← List.cons_append]; rfl⟩

/-- The bytes of a document that is followed by something: what follows is taken apart by itself. -/
theorem whole_bytes {s r : List Char} {d : XmlDoc} (h : Whole s d) {bs : List UInt8}
    (hb : Utf8.xmlChars bs = s ++ r) :
    ∃ l q, bs = l ++ q ∧ Utf8.xmlChars q = r ∧ ∀ q', Utf8.xmlChars (l ++ q') = s ++ Utf8.xmlChars q' := by
  obtain ⟨p, rfl⟩ := whole_end h
  unfold Utf8.xmlChars at hb
  obtain ⟨x, y, hxy, hx, hy⟩ := List.map_eq_append_iff.1 hb
  obtain ⟨x₁, x₂, rfl, hx₁, hx₂⟩ := List.map_eq_append_iff.1 hx
  obtain ⟨o, rfl, ho⟩ : ∃ o, x₂ = [o] ∧ o.getD (Char.ofNat 0xFFFE) = '>' := by
    cases x₂ with
    | nil => cases hx₂
    | cons o x₂ =>
      simp only [List.map_cons, List.cons.injEq, List.map_eq_nil_iff] at hx₂
      exact ⟨o, by rw [hx₂.2], hx₂.1⟩
  have ho : o = some '>' := by
    cases o with
    | none => exact absurd ho (by decide)
    | some c => exact congrArg some ho
  subst ho
  rw [List.append_assoc, List.cons_append, List.nil_append] at hxy
  obtain ⟨l, q, z, rfl, -, hq, hall⟩ := Utf8.runes_split (c := '>') (by decide) hxy
  refine ⟨l ++ [z], q, by simp, by rw [Utf8.xmlChars, hq, hy], fun q' => ?_⟩
  unfold Utf8.xmlChars
  rw [List.append_assoc, List.cons_append, List.nil_append, hall q']
  simp [← hx₁]

theorem xmlChars_eq_nil {bs : List UInt8} (h : Utf8.xmlChars bs = []) : bs = [] := by
  cases bs with
  | nil => rfl
  | cons b bs => rw [Utf8.xmlChars, Utf8.runes_cons] at h; cases h

theorem parseBytes_nil : parseBytes [] = none := by
  unfold parseBytes Utf8.xmlChars
  rw [Utf8.runes_nil]
  rfl

/-- A document may be followed by any bytes. -/
theorem parseBytes_append {bs : List UInt8} {d : XmlDoc} (h : parseBytes bs = some d) (us : List UInt8) :
    parseBytes (bs ++ us) = some d := by
  obtain ⟨s, r, hb, hs⟩ := document_iff_whole.1 (parse_iff.1 h)
  obtain ⟨l, q, rfl, -, hall⟩ := whole_bytes hs hb
  unfold parseBytes
  rw [List.append_assoc, hall]
  exact whole_parse hs _

/-- A document that ends with its root element is none without its last bytes. -/
theorem whole_cut_bytes {t u : List UInt8} {d : XmlDoc} (h : Whole (Utf8.xmlChars (t ++ u)) d) (hu : u ≠ []) :
    parseBytes t = none := by
  cases hp : parseBytes t with
  | none => rfl
  | some d' =>
    obtain ⟨s, r, hb, hs⟩ := document_iff_whole.1 (parse_iff.1 hp)
    obtain ⟨l, q, rfl, -, hall⟩ := whole_bytes hs hb
    rw [List.append_assoc, hall] at h
    have := (whole_unique (r := []) (r' := Utf8.xmlChars (q ++ u)) h hs (by simp)).2.1
    exact absurd (List.append_eq_nil_iff.1 (xmlChars_eq_nil this.symm)).2 hu

end XmlText

/-! ## Where a JSON text ends -/

namespace JText

open JsonText

/-- A value that is not a number is read, whatever follows it. -/
theorem pValue_closed {j : Json} {t : List Char} (h : Value j t) (hn : ∀ l, j ≠ .num l) (f : Nat) (rest : List Char)
    (hf : 2 * t.length ≤ f) : pValue f (t ++ rest) = some (j, rest) := by
  cases h with
  | num _ => exact absurd rfl (hn _)
  | null =>
    simp only [List.length_cons, List.length_nil] at hf
    obtain ⟨f, rfl⟩ : ∃ g, f = g + 1 := ⟨f - 1, by omega⟩
    simp [pValue]
  | true =>
    simp only [List.length_cons, List.length_nil] at hf
    obtain ⟨f, rfl⟩ : ∃ g, f = g + 1 := ⟨f - 1, by omega⟩
    simp [pValue]
  | false =>
    simp only [List.length_cons, List.length_nil] at hf
    obtain ⟨f, rfl⟩ : ∃ g, f = g + 1 := ⟨f - 1, by omega⟩
    simp [pValue]
  | str hs =>
    obtain ⟨t', rfl, hp⟩ := pString_complete hs rest
    simp only [List.length_cons] at hf
    obtain ⟨f, rfl⟩ : ∃ g, f = g + 1 := ⟨f - 1, by omega⟩
    simp [pValue, hp]
  | @arr0 w hw =>
    simp only [List.length_cons] at hf
    obtain ⟨f, rfl⟩ : ∃ g, f = g + 1 := ⟨f - 1, by omega⟩
    have : skipWs (w ++ ']' :: rest) = ']' :: rest := by
      rw [skipWs_append _ hw, skipWs_of_noWs]; exact (by decide : isSpace ']' = false)
    simp [pValue, this]
  | arr he =>
    simp only [List.length_cons, List.length_append, List.length_nil] at hf
    obtain ⟨f, rfl⟩ : ∃ g, f = g + 1 := ⟨f - 1, by omega⟩
    obtain ⟨c, r', e, hc⟩ := elems_head he (']' :: rest)
    have ih := pElems_complete he f rest (by omega)
    simp only [List.cons_append, List.append_assoc, List.nil_append]
    unfold pValue
    simp [e, hc, ih]
  | @obj0 w hw =>
    simp only [List.length_cons] at hf
    obtain ⟨f, rfl⟩ : ∃ g, f = g + 1 := ⟨f - 1, by omega⟩
    have : skipWs (w ++ '}' :: rest) = '}' :: rest := by
      rw [skipWs_append _ hw, skipWs_of_noWs]; exact (by decide : isSpace '}' = false)
    simp [pValue, this]
  | obj he =>
    simp only [List.length_cons, List.length_append, List.length_nil] at hf
    obtain ⟨f, rfl⟩ : ∃ g, f = g + 1 := ⟨f - 1, by omega⟩
    obtain ⟨c, r', e, hc⟩ := members_head he ('}' :: rest)
    have ih := pMembers_complete he f rest (by omega)
    simp only [List.cons_append, List.append_assoc, List.nil_append]
    unfold pValue
    simp [e, hc, ih]

theorem closed_head {j : Json} {t : List Char} (h : Value j t) (hn : ∀ l, j ≠ .num l) :
    ∃ c r, t = c :: r ∧ isNumChar c = false := by
  cases h with
  | num _ => exact absurd rfl (hn _)
  | null => exact ⟨_, _, rfl, by decide⟩
  | true => exact ⟨_, _, rfl, by decide⟩
  | false => exact ⟨_, _, rfl, by decide⟩
  | str hs => cases hs; exact ⟨_, _, rfl, by decide⟩
  | arr0 _ => exact ⟨_, _, rfl, by decide⟩
  | arr _ => exact ⟨_, _, rfl, by decide⟩
  | obj0 _ => exact ⟨_, _, rfl, by decide⟩
  | obj _ => exact ⟨_, _, rfl, by decide⟩

theorem num_head {l : NumLit} {t : List Char} (h : Value (.num l) t) : ∃ c r, t = c :: r ∧ isNumChar c = true := by
  cases h with
  | num _ =>
    obtain ⟨chars, hv⟩ := l
    cases chars with
    | nil => simp [isNumLit, numFrom, NumState.final] at hv
    | cons c cs => exact ⟨c, cs, rfl, numFrom_chars hv c (.head _)⟩

/-- If a text of a value that is no number begins with a JSON text, the rest is at the end of the white space that
follows the value, and the values are the same. -/
theorem value_cut {j j' : Json} {w v w' t u : List Char} (hw : Ws w) (hv : Value j v)
    (hn : ∀ l, j ≠ .num l) (ht : t ++ u = w ++ (v ++ w')) (h' : Text j' t) : (∃ x, w' = x ++ u) ∧ j' = j := by
  obtain @⟨w₁, w₁', v₁, _, hw₁, hv₁, hw₁'⟩ := h'
  have e : v₁ ++ (w₁' ++ u) = v ++ w' := by
    have := congrArg skipWs ht
    rw [skipWs_append _ hw, skipWs_of_noWs (value_noWs hv _), List.append_assoc, skipWs_append _ hw₁, List.append_assoc,
      skipWs_of_noWs (value_noWs hv₁ _)] at this
    exact this
  have hn' : ∀ l, j' ≠ .num l := by
    rintro l rfl
    obtain ⟨c, r, rfl, hc⟩ := num_head hv₁
    obtain ⟨d, s, rfl, hd⟩ := closed_head hv hn
    simp only [List.cons_append, List.cons.injEq] at e
    rw [e.1, hd] at hc
    cases hc
  have p₁ := pValue_closed hv₁ hn' (2 * v₁.length + 2 * v.length) (w₁' ++ u) (by omega)
  have p := pValue_closed hv hn (2 * v₁.length + 2 * v.length) w' (by omega)
  rw [e, p] at p₁
  obtain ⟨rfl, rfl⟩ := Prod.mk.inj (Option.some.inj p₁)
  exact ⟨⟨w₁', rfl⟩, rfl⟩

/-- If a text of a value that is no number begins with a JSON text, the rest is white space, and the values are the
same. -/
theorem text_cut {j j' : Json} {t u : List Char} (h : Text j (t ++ u)) (hn : ∀ l, j ≠ .num l) (h' : Text j' t) :
    Ws u ∧ j' = j := by
  generalize ht : t ++ u = s at h
  obtain @⟨w, w', v, _, hw, hv, hw'⟩ := h
  obtain ⟨⟨x, rfl⟩, rfl⟩ := value_cut hw hv hn ht h'
  exact ⟨fun c hc => hw' c (List.mem_append_right _ hc), rfl⟩

theorem closed_end {j : Json} {t : List Char} (h : Value j t) (hn : ∀ l, j ≠ .num l) :
    ∃ p c, t = p ++ [c] ∧ c.toNat < 0x80 := by
  cases h with
  | num _ => exact absurd rfl (hn _)
  | null => exact ⟨['n', 'u', 'l'], 'l', rfl, by decide⟩
  | true => exact ⟨['t', 'r', 'u'], 'e', rfl, by decide⟩
  | false => exact ⟨['f', 'a', 'l', 's'], 'e', rfl, by decide⟩
  | str hs => cases hs; exact ⟨_ :: _, '"', rfl, by decide⟩
  | arr0 _ => exact ⟨_ :: _, ']', rfl, by decide⟩
  | arr _ => exact ⟨_ :: _, ']', rfl, by decide⟩
  | obj0 _ => exact ⟨_ :: _, '}', rfl, by decide⟩
  | obj _ => exact ⟨_ :: _, '}', rfl, by decide⟩

/-- A JSON text whose value is not a number ends with an ASCII character. -/
theorem text_end {j : Json} {t : List Char} (h : Text j t) (hn : ∀ l, j ≠ .num l) : ∃ p c, t = p ++ [c] ∧ c.toNat < 0x80 := by
  obtain @⟨w, w', v, _, hw, hv, hw'⟩ := h
  rcases List.eq_nil_or_concat w' with rfl | ⟨x, c, rfl⟩
  · obtain ⟨p, c, rfl, hc⟩ := closed_end hv hn
    exact ⟨w ++ p, c, by simp, hc⟩
  · refine ⟨w ++ (v ++ x), c, by simp, ?_⟩
    have := hw' c (by simp)
    rcases this with rfl | rfl | rfl | rfl <;> decide

/-- Such a text may be followed by any bytes: they are taken apart by themselves. -/
theorem text_bytes {j : Json} {bs : List UInt8} (h : Text j (Utf8.jsonChars bs)) (hn : ∀ l, j ≠ .num l) (us : List UInt8) :
    Utf8.jsonChars (bs ++ us) = Utf8.jsonChars bs ++ Utf8.jsonChars us := by
  obtain ⟨p, c, hb, hc⟩ := text_end h hn
  unfold Utf8.jsonChars at hb
  obtain ⟨x₁, x₂, hx, hx₁, hx₂⟩ := List.map_eq_append_iff.1 hb
  obtain ⟨o, rfl, ho⟩ : ∃ o, x₂ = [o] ∧ o.getD (Char.ofNat 0xFFFD) = c := by
    cases x₂ with
    | nil => cases hx₂
    | cons o x₂ =>
      simp only [List.map_cons, List.cons.injEq, List.map_eq_nil_iff] at hx₂
      exact ⟨o, by rw [hx₂.2], hx₂.1⟩
  have ho : o = some c := by
    cases o with
    | none => subst ho; exact absurd hc (by decide)
    | some c => exact congrArg some ho
  subst ho
  obtain ⟨l, q, z, rfl, -, hq, hall⟩ := Utf8.runes_split hc hx
  unfold Utf8.jsonChars
  have hq : q = [] := by
    cases q with
    | nil => rfl
    | cons b q => rw [Utf8.runes_cons] at hq; cases hq
  subst hq
  rw [List.append_assoc, List.cons_append, List.nil_append, hall us, hall []]
  simp [Utf8.runes_nil]

end JText

/-! ## What the XML decoder takes from a reader -/

namespace Reader

variable [XmlText.XmlLang]

/-- If there is a document, it is in what was read, and was not before the last call. -/
theorem readDocument_sound : ∀ {ps : List Piece} {n : Nat} {acc : List UInt8} {d : XmlDoc} {rest : List Piece},
    readDocument n acc ps = some (d, rest) → ∃ init last, ps = init ++ last :: rest ∧ Flawless init ∧
      last.bytes ≠ [] ∧ XmlText.parseBytes (acc ++ (textOf init ++ last.bytes)) = some d ∧
      (XmlText.parseBytes acc = none → XmlText.parseBytes (acc ++ textOf init) = none)
  | [], _, _, _, _, h => by simp [readDocument] at h
  | p :: ps, n, acc, d, rest, h => by
    unfold readDocument at h
    split at h
    · next hc =>
      split at h
      · cases h
      · next he =>
        have he : p.err = none := by
          cases hh : p.err with
          | none => rfl
          | some e => exact absurd (.inl (by simp [hh])) he
        obtain ⟨init, last, rfl, hf, hl, hp, hm⟩ := readDocument_sound h
        refine ⟨p :: init, last, rfl, ?_, hl, ?_, ?_⟩
        · intro q hq
          rcases List.mem_cons.1 hq with rfl | hq
          · exact he
          · exact hf q hq
        · simpa [textOf, hc] using hp
        · simpa [textOf, hc] using hm
    · next hc =>
      split at h
      · next d' hp =>
        simp only [Option.some.injEq, Prod.mk.injEq] at h
        obtain ⟨rfl, rfl⟩ := h
        exact ⟨[], p, rfl, by simp [Flawless], hc, by simpa [textOf] using hp, by simp [textOf]⟩
      · next hn =>
        split at h
        · cases h
        · next he =>
          have he : p.err = none := by
            cases hh : p.err with
            | none => rfl
            | some e => exact absurd (by simp [hh]) he
          obtain ⟨init, last, rfl, hf, hl, hp, hm⟩ := readDocument_sound h
          refine ⟨p :: init, last, rfl, ?_, hl, ?_, ?_⟩
          · intro q hq
            rcases List.mem_cons.1 hq with rfl | hq
            · exact he
            · exact hf q hq
          · simpa [textOf, List.append_assoc] using hp
          · intro _
            simpa [textOf, List.append_assoc] using hm hn

/-- No hundred consecutive idle calls, if `n` went before. -/
def Lively (n : Nat) (ps : List Piece) : Prop := ¬ Stalls (List.replicate n Piece.idle ++ ps)

theorem lively_idle {n : Nat} {ps : List Piece} (h : Lively n (Piece.idle :: ps)) : Lively (n + 1) ps ∧ n + 1 ≠ 100 := by
  have e : List.replicate n Piece.idle ++ Piece.idle :: ps = List.replicate (n + 1) Piece.idle ++ ps := by
    rw [List.replicate_succ', List.append_assoc]; rfl
  constructor
  · intro hs
    exact h (by rw [e]; exact hs)
  · intro hn
    refine h ⟨[], ps, ?_⟩
    rw [e, hn]
    rfl

theorem lively_tail {n : Nat} {p : Piece} {ps : List Piece} (h : Lively n (p :: ps)) : Lively 0 ps := by
  rintro ⟨a, b, e⟩
  refine h ⟨List.replicate n Piece.idle ++ p :: a, b, ?_⟩
  simp only [List.replicate_zero, List.nil_append] at e
  rw [e]
  simp

/-- If it does not stall, a reader gives the decoder the document in its text. -/
theorem readDocument_delivers {ps : List Piece} {t : List UInt8} {e : Option String} (h : Delivers ps t e) :
    ∀ {n : Nat} {acc : List UInt8}, Lively n ps → XmlText.parseBytes acc = none →
      (readDocument n acc ps).map Prod.fst = XmlText.parseBytes (acc ++ t) := by
  have last : ∀ {n : Nat} {acc t : List UInt8} {x : ReadErr} {ps : List Piece}, XmlText.parseBytes acc = none →
      (readDocument n acc (⟨t, some x⟩ :: ps)).map Prod.fst = XmlText.parseBytes (acc ++ t) := by
    intro n acc t x ps ha
    unfold readDocument
    by_cases ht : t = []
    · simp [ht, ha]
    · simp only [ht, if_false]
      cases hp : XmlText.parseBytes (acc ++ t) <;> simp
  induction h with
  | done => intro n acc _ ha; simp [readDocument, ha]
  | eof => intro n acc _ ha; exact last ha
  | fail => intro n acc _ ha; exact last ha
  | @more t s e ps _ ih =>
    intro n acc hl ha
    unfold readDocument
    by_cases ht : t = []
    · subst ht
      obtain ⟨h1, h2⟩ := lively_idle hl
      simp only [if_true, Option.isSome_none, Bool.false_eq_true, false_or, h2, if_false, List.nil_append]
      exact ih h1 ha
    · simp only [ht, if_false, Option.isSome_none, Bool.false_eq_true]
      cases hp : XmlText.parseBytes (acc ++ t) with
      | some d =>
        rw [← List.append_assoc, XmlText.parseBytes_append hp]
        rfl
      | none =>
        simp only
        rw [ih (lively_tail hl) hp, List.append_assoc]

/-- What is read once the document is complete does not matter. -/
theorem readDocument_append : ∀ {ps : List Piece} {n : Nat} {acc : List UInt8} {d : XmlDoc} {rest : List Piece}
    (qs : List Piece), readDocument n acc ps = some (d, rest) → readDocument n acc (ps ++ qs) = some (d, rest ++ qs)
  | [], _, _, _, _, _, h => by simp [readDocument] at h
  | p :: ps, n, acc, d, rest, qs, h => by
    rw [List.cons_append]
    unfold readDocument at h ⊢
    split at h
    · next hc =>
      rw [if_pos hc]
      split at h
      · cases h
      · next he => rw [if_neg he]; exact readDocument_append qs h
    · next hc =>
      rw [if_neg hc]
      split at h
      · next d' hp =>
        simp only [Option.some.injEq, Prod.mk.injEq] at h
        obtain ⟨rfl, rfl⟩ := h
        rfl
      · next hn =>
        split at h
        · cases h
        · next he => simp only [he, if_false]; exact readDocument_append qs h

/-- A reader that stalls before the document is complete is given up. -/
theorem readDocument_stalls (qs : List Piece) : ∀ {ps : List Piece} {n : Nat} {acc : List UInt8}, n < 100 → Flawless ps →
    XmlText.parseBytes (acc ++ textOf ps) = none →
      readDocument n acc (ps ++ (List.replicate 100 Piece.idle ++ qs)) = none
  | [], n, acc, hn, _, _ => by
    have idle : ∀ (k : Nat) {n : Nat}, n < 100 → 100 ≤ n + k →
        readDocument n acc (List.replicate k Piece.idle ++ qs) = none := by
      intro k
      induction k with
      | zero => intro n h1 h2; omega
      | succ k ih =>
        intro n h1 h2
        rw [List.replicate_succ, List.cons_append]
        unfold readDocument
        by_cases h : n + 1 = 100
        · simp [Piece.idle, h]
        · simp only [Piece.idle, if_true, Option.isSome_none, Bool.false_eq_true, false_or, h, if_false]
          exact ih (by omega) (by omega)
    exact idle 100 hn (by omega)
  | p :: ps, n, acc, hn, hf, hp => by
    have he : p.err = none := hf _ List.mem_cons_self
    have hf' : Flawless ps := fun q hq => hf q (List.mem_cons_of_mem _ hq)
    have e : acc ++ textOf (p :: ps) = (acc ++ p.bytes) ++ textOf ps := by simp [textOf, List.append_assoc]
    rw [e] at hp
    rw [List.cons_append]
    unfold readDocument
    by_cases hc : p.bytes = []
    · simp only [hc, if_true, he, Option.isSome_none, Bool.false_eq_true, false_or]
      split
      · rfl
      · next h =>
        rw [hc, List.append_nil] at hp
        exact readDocument_stalls qs (by omega) hf' hp
    · simp only [hc, if_false, he, Option.isSome_none, Bool.false_eq_true]
      cases h : XmlText.parseBytes (acc ++ p.bytes) with
      | some d => rw [XmlText.parseBytes_append h] at hp; cases hp
      | none => exact readDocument_stalls qs (by omega) hf' hp

/-- A document handed over byte by byte is read up to its end. -/
theorem readDocument_bytes {d : XmlDoc} : ∀ {u acc : List UInt8} {n : Nat} {ps : List Piece}, u ≠ [] →
    XmlGrammar.Whole (Utf8.xmlChars (acc ++ u)) d →
      readDocument n acc (u.map (fun c => ⟨[c], none⟩) ++ ps) = some (d, ps)
  | [], _, _, _, hu, _ => absurd rfl hu
  | [c], acc, n, ps, _, h => by
    have : XmlText.parseBytes (acc ++ [c]) = some d := by
      have := XmlText.whole_parse h []
      rwa [List.append_nil] at this
    simp [readDocument, this]
  | c :: c' :: u, acc, n, ps, _, h => by
    have hw : XmlGrammar.Whole (Utf8.xmlChars ((acc ++ [c]) ++ (c' :: u))) d := by simpa using h
    have hn := XmlText.whole_cut_bytes hw (by simp)
    rw [List.map_cons, List.cons_append]
    unfold readDocument
    simp only [List.cons_ne_nil, if_false, hn, Option.isSome_none, Bool.false_eq_true]
    exact readDocument_bytes (by simp) hw

end Reader

end Verif
