import Verif.Spec.XmlStrict
import Verif.Xml.SpaceLaws
import Verif.Xml.TextLaws

/-!
# What the encoder prints is read back, up to the white space of the indentation
-/

namespace Verif.XmlText

open Xml (isChar Tidy TidyL Spaced SpacedL)
open XmlGrammar (Ref)
open XmlStrict

set_option linter.unusedSectionVars false

/-! ### Texts -/

theorem chars_append_ref {lit : Char → Prop} {e r s : List Char} {c d : Char} (h : Ref e d) (he : d = c)
    (hc : isChar c = true) (hr : Chars lit r s) : Chars lit (e ++ r) (c :: s) := by
  subst he
  exact .ref h hc hr

theorem escapeChar_chars {lit : Char → Prop} (hlit : ∀ c, PlainInValue c → lit c) {c : Char} (hc : isChar c = true)
    {r s : List Char} (hr : Chars lit r s) : Chars lit (escapeChar c ++ r) (c :: s) := by
  unfold escapeChar
  split
  · exact chars_append_ref (.dec (ds := ['3', '4']) (by simp) (by decide) (by decide)) (by subst_vars; decide) hc hr
  split
  · exact chars_append_ref (.dec (ds := ['3', '9']) (by simp) (by decide) (by decide)) (by subst_vars; decide) hc hr
  split
  · exact chars_append_ref (.entity .amp) (by subst_vars; rfl) hc hr
  split
  · exact chars_append_ref (.entity .lt) (by subst_vars; rfl) hc hr
  split
  · exact chars_append_ref (.entity .gt) (by subst_vars; rfl) hc hr
  split
  · exact chars_append_ref (.hex (ds := ['9']) (by simp) (by decide) (by decide)) (by subst_vars; decide) hc hr
  split
  · exact chars_append_ref (.hex (ds := ['A']) (by simp) (by decide) (by decide)) (by subst_vars; decide) hc hr
  split
  · exact chars_append_ref (.hex (ds := ['D']) (by simp) (by decide) (by decide)) (by subst_vars; decide) hc hr
  rename_i h1 h2 h3 h4 h5 h6 h7 h8
  exact .char (hlit c ⟨⟨h4, h3, h5, h8⟩, h1, h6, h7⟩) hc hr

theorem escape_chars {lit : Char → Prop} (hlit : ∀ c, PlainInValue c → lit c) :
    ∀ {cs : List Char}, (∀ c ∈ cs, isChar c = true) → Chars lit (escape cs) cs
  | [], _ => .nil
  | c :: cs, h => escapeChar_chars hlit (h c (by simp)) (escape_chars hlit fun d hd => h d (by simp [hd]))

theorem escapeChar_ne (c : Char) : escapeChar c ≠ [] := by
  unfold escapeChar
  repeat' split
  all_goals simp

theorem escape_ne {cs : List Char} (h : cs ≠ []) : escape cs ≠ [] := by
  cases cs with
  | nil => exact absurd rfl h
  | cons c cs => simp [escape, escapeChar_ne]

/-- The characters of the indentation. -/
def Indent (w : List Char) : Prop := ∀ c ∈ w, c = ' ' ∨ c = '\n'

theorem indent_chars : ∀ {w : List Char}, Indent w → Chars Plain w w
  | [], _ => .nil
  | c :: w, h => by
    refine .char ?_ ?_ (indent_chars fun d hd => h d (by simp [hd])) <;>
    rcases h c (by simp) with rfl | rfl
    · exact ⟨by decide, by decide, by decide, by decide⟩
    · exact ⟨by decide, by decide, by decide, by decide⟩
    · decide
    · decide

theorem indent_blank {w : List Char} (h : Indent w) : IsBlank (.text (String.ofList w)) := by
  refine ⟨_, rfl, fun c hc => ?_⟩
  rw [String.toList_ofList] at hc
  rcases h c hc with rfl | rfl <;> decide

theorem writeIndent_indent (pretty up : Bool) (p : Printer) : Indent (writeIndent pretty up p).1 := by
  unfold writeIndent
  split
  · simp [Indent]
  split
  · simp [Indent]
  · intro c hc
    simp only [List.mem_append, List.mem_replicate] at hc
    rcases hc with hc | hc
    · have : ∀ b : Bool, c ∈ (if b then ['\n'] else []) → c = '\n' := by
        intro b; cases b <;> simp
      exact .inr (this _ hc)
    · exact .inl hc.2

theorem writeIndent_plain (up : Bool) (p : Printer) : writeIndent false up p = ([], p) := rfl

/-- Directly after a start tag nothing is put before the end tag. -/
theorem writeIndent_back (pretty : Bool) (p : Printer) :
    (writeIndent pretty false (writeIndent pretty true p).2).1 = [] := by
  cases pretty
  · rfl
  · simp [writeIndent]

/-! ### Names and attributes -/

theorem okName_name {n : String} (h : OKName n) : XmlStrict.Name n.toList := by
  have h := h.ok
  unfold okName at h
  split at h
  · cases h
  · rename_i c cs e
    simp only [Bool.and_eq_true, List.all_eq_true, Bool.or_eq_true, decide_eq_true_eq, Char.isAlphanum] at h
    refine ⟨c, cs, e, h.1, fun d hd => ?_⟩
    rcases h.2 d hd with (((h | h) | h) | h) | h <;> simp [h]

theorem attrText_atts : ∀ {as : List (String × String)}, (∀ kv ∈ as, OKName kv.1 ∧ Allowed kv.2) →
    Atts (attrText as) as
  | [], _ => .nil
  | (n, v) :: as, h => by
    obtain ⟨hn, hv⟩ := h (n, v) (by simp)
    have ih := attrText_atts (as := as) fun kv hkv => h kv (by simp [hkv])
    have := Atts.cons (w := [' ']) (by simp) (by simp) (okName_name hn) (escape_chars (fun _ h => h) hv) ih
    simpa [attrText] using this

/-! ### Elements -/

/-- White space in front of a tag. -/
theorem content_indent {w r : List Char} {ks : List Xml} (hw : Indent w) (hr : ∀ c r', r = c :: r' → c = '<')
    (h : Content r ks) : ∃ bs, (∀ b ∈ bs, IsBlank b) ∧ (w = [] → bs = []) ∧ Content (w ++ r) (bs ++ ks) := by
  by_cases hne : w = []
  · subst hne
    exact ⟨[], by simp, fun _ => rfl, by simpa using h⟩
  · refine ⟨[.text (String.ofList w)], ?_, fun e => absurd e hne, .text hne (indent_chars hw) hr h⟩
    intro b hb
    simp only [List.mem_singleton] at hb
    subst hb
    exact indent_blank hw

theorem spacedL_append_blank : ∀ {ks ls bs : List Xml}, SpacedL ks ls → (∀ b ∈ bs, IsBlank b) → SpacedL ks (ls ++ bs)
  | [], ls, bs, h, hb => by
    simp only [SpacedL, List.mem_append] at h ⊢
    rintro l (hl | hl)
    · exact h l hl
    · exact hb l hl
  | k :: ks, ls, bs, h, hb => by
    simp only [SpacedL] at h ⊢
    obtain ⟨cs, l, ls', rfl, hc, hl, hr⟩ := h
    exact ⟨cs, l, ls' ++ bs, by simp, hc, hl, spacedL_append_blank hr hb⟩

/-- What is printed for an element: white space, and then the element. -/
def PrintsAs (pretty : Bool) (x : Xml) (p : Printer) : Prop :=
  ∃ w t y, (print pretty x p).1 = w ++ t ∧ Indent w ∧ (pretty = false → w = []) ∧ (∃ t', t = '<' :: t') ∧
    Spaced x y ∧ (pretty = false → y = x) ∧ Element t y

/-- What is printed for the content of an element. -/
def PrintsAllAs (pretty : Bool) (ks : List Xml) (p : Printer) : Prop :=
  AllElems ks → ∃ ls, SpacedL ks ls ∧ (pretty = false → ls = ks) ∧
    (∀ r rs, Content r rs → Content ((printL pretty ks p).1 ++ r) (ls ++ rs))

/-- What is printed between the tags of an element. -/
theorem print_content {pretty : Bool} {ks : List Xml} (hshape : AllElems ks ∨ ∃ s, ks = [.text s]) (hk : TidyL ks)
    (p : Printer) (ih : PrintsAllAs pretty ks (writeIndent pretty true p).2) :
    ∃ ls, SpacedK ks ls ∧ (pretty = false → ls = ks) ∧
      Content ((printL pretty ks (writeIndent pretty true p).2).1 ++
        (writeIndent pretty false (printL pretty ks (writeIndent pretty true p).2).2).1) ls := by
  by_cases h0 : ks = []
  · subst h0
    refine ⟨[], .inl rfl, fun _ => rfl, ?_⟩
    simp only [printL, writeIndent_back]
    exact .nil
  rcases hshape with hs | ⟨s, rfl⟩
  · obtain ⟨ls, hsp, heq, hc⟩ := ih hs
    obtain ⟨bs, hb, hb0, hcb⟩ := content_indent (w := (writeIndent pretty false
      (printL pretty ks (writeIndent pretty true p).2).2).1) (r := []) (ks := []) (writeIndent_indent _ _ _)
      (by simp) .nil
    rw [List.append_nil, List.append_nil] at hcb
    refine ⟨ls ++ bs, .inr ⟨h0, hs, spacedL_append_blank hsp hb⟩, fun hp => ?_, hc _ _ hcb⟩
    subst hp
    rw [heq rfl, hb0 rfl, List.append_nil]
  · refine ⟨_, .inl rfl, fun _ => rfl, ?_⟩
    simp only [printL, print, writeIndent_back, List.append_nil]
    simp only [TidyL, Tidy] at hk
    have hne : s.toList ≠ [] := by
      intro e
      exact hk.1.1 (by rw [← String.ofList_toList (s := s), e])
    have := Content.text (escape_ne hne) (escape_chars (fun _ h => h.1) hk.1.2) (r := []) (by simp) .nil
    simpa using this

mutual
theorem print_elem (pretty : Bool) : ∀ {x : Xml}, x.Tidy → (∃ n as ks, x = .elem n as ks) → ∀ p, PrintsAs pretty x p
  | .text s, _, h, _ => by obtain ⟨_, _, _, h⟩ := h; cases h
  | .elem n as ks, h, _, p => by
    simp only [Tidy] at h
    obtain ⟨hn, ha, hshape, hk⟩ := h
    obtain ⟨ls, hls, heq, hc⟩ := print_content hshape hk p (printL_elems pretty hk (writeIndent pretty true p).2)
    refine ⟨(writeIndent pretty true p).1, _, .elem n as ls, rfl, writeIndent_indent _ _ _,
      fun hp => by subst hp; rfl, ⟨_, rfl⟩, spaced_elem.2 ⟨ls, rfl, hls⟩, fun hp => by rw [heq hp], ?_⟩
    have := Element.mk (okName_name hn) (attrText_atts ha.1) ha.2 hc
    simp only [String.ofList_toList] at this
    simpa using this
theorem printL_elems (pretty : Bool) : ∀ {ks : List Xml}, TidyL ks → ∀ p, PrintsAllAs pretty ks p
  | [], _, _ => fun _ => ⟨[], by simp [SpacedL], fun _ => rfl, fun r rs h => by simpa [printL] using h⟩
  | k :: ks, h, p => fun hall => by
    simp only [TidyL] at h
    obtain ⟨w, t, y, e, hw, hw0, ⟨t', rfl⟩, hsp, hy, hc⟩ := print_elem pretty h.1 (hall k (by simp)) p
    obtain ⟨ls, hls, heq, hcs⟩ := printL_elems pretty h.2 (print pretty k p).2 fun x hx => hall x (by simp [hx])
    obtain ⟨bs, hb, hb0, hbs⟩ : ∃ bs, (∀ b ∈ bs, IsBlank b) ∧ (w = [] → bs = []) ∧
        ∀ r rs, (∀ c r', r = c :: r' → c = '<') → Content r rs → Content (w ++ r) (bs ++ rs) := by
      by_cases hne : w = []
      · subst hne
        exact ⟨[], by simp, fun _ => rfl, fun r rs _ h => by simpa using h⟩
      · refine ⟨[.text (String.ofList w)], ?_, fun e => absurd e hne, fun r rs hr h => .text hne (indent_chars hw) hr h⟩
        intro b hb
        simp only [List.mem_singleton] at hb
        subst hb
        exact indent_blank hw
    refine ⟨bs ++ y :: ls, ?_, fun hp => ?_, fun r rs hr => ?_⟩
    · simp only [SpacedL]
      exact ⟨bs, y, ls, rfl, hb, hsp, hls⟩
    · rw [hb0 (hw0 hp), hy hp, heq hp]; rfl
    · have h1 := Content.elem hc (hcs r rs hr)
      have h2 := hbs _ _ (by
        intro c r' e
        simp only [List.cons_append, List.cons.injEq] at e
        exact e.1.symm) h1
      simp only [printL, e]
      simpa using h2
end

/-! ### Documents -/

theorem header_eq : header = "<?xml version=\"1.0\" encoding=\"UTF-8\"?>".toList ++ ['\n'] := by decide +kernel

/-- What is printed after the header. -/
theorem print_document (pretty : Bool) {x : Xml} (hx : ∃ n as ks, x = .elem n as ks) (ht : x.Tidy) :
    ∃ y, Spaced x y ∧ (pretty = false → y = x) ∧ XmlStrict.Document (header ++ (print pretty x {}).1) y := by
  obtain ⟨w, t, y, e, hw, -, -, hs, hy, he⟩ := print_elem pretty ht hx {}
  refine ⟨y, hs, hy, ?_⟩
  have := Document.mk (w := '\n' :: w) (by
    intro c hc
    rcases List.mem_cons.1 hc with rfl | hc
    · exact .inr rfl
    · exact hw c hc) he
  rw [e, header_eq, List.append_assoc]
  exact this

end Verif.XmlText
