import Verif.Xml.StructLaws
import Verif.Xml.Text

/-!
# White space between elements does not matter to the decoder

When the output is indented, the encoder puts white space between elements.  This file describes the trees that the
encoder writes (`Xml.Tidy`) and the trees that are read when they are indented (`Xml.Spaced`), and shows for the
building blocks of the codecs that both are decoded to the same value.
-/

namespace Verif

open Xml (sanitize trim trimChars textOf textKids isChar)

/-! ### Names and texts -/

/-- Names that consist of ASCII letters, digits and a few punctuation characters, without a prefix. -/
def okName (n : String) : Bool :=
  match n.toList with
  | [] => false
  | c :: cs => (c.isAlpha || c = '_') && cs.all fun c => c.isAlphanum || c = '_' || c = '.' || c = '-'

/-- A name of an element or attribute that may be used in tags. -/
class OKName (n : String) : Prop where
  ok : okName n = true

/-- A text that can be written and read back. -/
def Allowed (s : String) : Prop := ∀ c ∈ s.toList, isChar c = true

theorem allowed_sanitize (s : String) : Allowed (sanitize s) := by
  intro c hc
  rw [sanitize_toList] at hc
  obtain ⟨d, -, rfl⟩ := List.mem_map.1 hc
  unfold Xml.fixChar
  split
  · assumption
  · decide

/-- What is written as text consists of characters XML allows. -/
class XTextSafe {α : Type} (c : XText α) : Prop where
  allowed : ∀ a, Allowed (c.enc a)

instance : XTextSafe XText.string := ⟨allowed_sanitize⟩
instance : XTextSafe XText.bomReference := ⟨fun r => allowed_sanitize r.val⟩

theorem isChar_of_ascii {c : Char} (h1 : 0x20 ≤ c.toNat) (h2 : c.toNat < 128) : isChar c = true := by
  simp only [isChar, decide_eq_true_eq]; omega

theorem isChar_of_digit {c : Char} (h : isDigitChar c = true) : isChar c = true := by
  simp only [isDigitChar, Bool.and_eq_true, decide_eq_true_eq] at h
  have h1 : 48 ≤ c.toNat := UInt32.le_iff_toNat_le.1 h.1
  have h2 : c.toNat ≤ 57 := UInt32.le_iff_toNat_le.1 h.2
  exact isChar_of_ascii (by omega) (by omega)

theorem isChar_of_float {c : Char} (h : isFloatChar c = true) : isChar c = true := by
  simp only [isFloatChar, Bool.or_eq_true, decide_eq_true_eq] at h
  rcases h with h | h
  · exact isChar_of_digit h
  · simp only [List.mem_cons, List.not_mem_nil, or_false] at h
    rcases h with rfl | rfl | rfl | rfl | rfl | rfl | rfl | rfl | rfl <;> decide

instance : XTextSafe XText.bool where
  allowed a := by
    have h : ∀ c ∈ (if a then "true" else "false" : String).toList, isChar c = true := by
      cases a <;> decide +kernel
    exact h

instance : XTextSafe XText.int where
  allowed a c hc := by
    simp only [XText.int, String.toList_ofList] at hc
    rcases intChars_chars a c hc with h | rfl
    · exact isChar_of_digit h
    · decide

instance [XFloatIO] : XTextSafe XText.f32 := ⟨fun a c hc => isChar_of_float (XFloatIO.fmt32_chars a c hc)⟩
instance [XFloatIO] : XTextSafe XText.f64 := ⟨fun a c hc => isChar_of_float (XFloatIO.fmt64_chars a c hc)⟩

/-! ### Trees -/

/-- All of a content is elements. -/
def AllElems (ks : List Xml) : Prop := ∀ k ∈ ks, ∃ n as ls, k = .elem n as ls

mutual
/-- The trees the encoder writes: all names and texts can be written, no attribute is repeated, and the content of every
element is a text or elements only. -/
def Xml.Tidy : Xml → Prop
  | .text s => s ≠ "" ∧ Allowed s
  | .elem n as ks =>
    OKName n ∧ ((∀ kv ∈ as, OKName kv.1 ∧ Allowed kv.2) ∧ (as.map Prod.fst).Nodup) ∧
      (AllElems ks ∨ ∃ s, ks = [.text s]) ∧ Xml.TidyL ks
/-- `Xml.Tidy` for all of a content. -/
def Xml.TidyL : List Xml → Prop
  | [] => True
  | k :: ks => k.Tidy ∧ Xml.TidyL ks
end

/-- A text of nothing but white space. -/
def IsBlank (x : Xml) : Prop := ∃ s, x = .text s ∧ ∀ c ∈ s.toList, XmlText.isSpace c = true

mutual
/-- The second tree is the first one with white space added where an element contains nothing but elements. -/
def Xml.Spaced : Xml → Xml → Prop
  | .text s, y => y = .text s
  | .elem n as ks, y => ∃ ls, y = .elem n as ls ∧ (ls = ks ∨ (ks ≠ [] ∧ AllElems ks ∧ Xml.SpacedL ks ls))
/-- `Xml.Spaced` for a content of elements. -/
def Xml.SpacedL : List Xml → List Xml → Prop
  | [], ls => ∀ l ∈ ls, IsBlank l
  | k :: ks, ls => ∃ bs l ls', ls = bs ++ l :: ls' ∧ (∀ b ∈ bs, IsBlank b) ∧ Xml.Spaced k l ∧ Xml.SpacedL ks ls'
end

open Xml (Tidy TidyL Spaced SpacedL)

/-- How the content of an element changes. -/
def SpacedK (ks ls : List Xml) : Prop := ls = ks ∨ (ks ≠ [] ∧ AllElems ks ∧ SpacedL ks ls)

theorem tidyL_iff {ks : List Xml} : TidyL ks ↔ ∀ k ∈ ks, k.Tidy := by
  induction ks with
  | nil => simp [TidyL]
  | cons k ks ih => simp [TidyL, ih]

theorem spaced_elem {n : String} {as : List (String × String)} {ks : List Xml} {y : Xml} :
    Spaced (.elem n as ks) y ↔ ∃ ls, y = .elem n as ls ∧ SpacedK ks ls := by
  simp only [Spaced, SpacedK]

theorem spaced_text {s : String} {y : Xml} : Spaced (.text s) y ↔ y = .text s := by
  simp only [Spaced]

theorem spaced_refl (x : Xml) : Spaced x x := by
  cases x with
  | text s => exact spaced_text.2 rfl
  | elem n as ks => exact spaced_elem.2 ⟨ks, rfl, .inl rfl⟩

theorem spaced_isElem {x y : Xml} (h : Spaced x y) (n : String) : y.isElem n = x.isElem n := by
  cases x with
  | text s => rw [spaced_text.1 h]
  | elem m as ks => obtain ⟨ls, rfl, -⟩ := spaced_elem.1 h; rfl

theorem spaced_attrs {x y : Xml} (h : Spaced x y) : y.attrs = x.attrs := by
  cases x with
  | text s => rw [spaced_text.1 h]
  | elem m as ks => obtain ⟨ls, rfl, -⟩ := spaced_elem.1 h; rfl

theorem spaced_name {x y : Xml} (h : Spaced x y) : y.name = x.name := by
  cases x with
  | text s => rw [spaced_text.1 h]
  | elem m as ks => obtain ⟨ls, rfl, -⟩ := spaced_elem.1 h; rfl

theorem spaced_kids {x y : Xml} (h : Spaced x y) : SpacedK x.kids y.kids := by
  cases x with
  | text s => rw [spaced_text.1 h]; exact .inl rfl
  | elem m as ks => obtain ⟨ls, rfl, hk⟩ := spaced_elem.1 h; exact hk

theorem spacedK_textKids {s : String} {ls : List Xml} (h : SpacedK (textKids s) ls) : ls = textKids s := by
  rcases h with h | ⟨hne, ha, -⟩
  · exact h
  · unfold textKids at hne ha
    split at hne
    · simp at hne
    · rename_i hs
      rw [if_neg hs] at ha
      obtain ⟨_, _, _, e⟩ := ha (.text s) (by simp)
      cases e

/-- An element that holds a text does not change. -/
theorem spaced_textKids {n : String} {as : List (String × String)} {s : String} {y : Xml}
    (h : Spaced (.elem n as (textKids s)) y) : y = .elem n as (textKids s) := by
  obtain ⟨ls, rfl, hk⟩ := spaced_elem.1 h
  rw [spacedK_textKids hk]

theorem decAll_blank {α : Type} {step : Xml → α → Option α} (ht : ∀ s a, step (.text s) a = some a) :
    ∀ {bs : List Xml}, (∀ b ∈ bs, IsBlank b) → ∀ a, XField.decAll step bs a = some a
  | [], _, a => rfl
  | b :: bs, h, a => by
    obtain ⟨s, rfl, -⟩ := h b (by simp)
    simp only [XField.decAll, ht]
    exact decAll_blank ht (fun b' hb => h b' (by simp [hb])) a

/-- A loop over a content that ignores texts does not notice white space. -/
theorem decAll_spacedL {α : Type} {step : Xml → α → Option α} (ht : ∀ s a, step (.text s) a = some a) :
    ∀ {ks ls : List Xml}, SpacedL ks ls → (∀ k ∈ ks, ∀ l, Spaced k l → ∀ a, step l a = step k a) →
      ∀ a, XField.decAll step ls a = XField.decAll step ks a := by
  intro ks
  induction ks with
  | nil => intro ls h _ a; rw [decAll_blank ht (by simpa only [SpacedL] using h)]; rfl
  | cons k ks ih =>
    intro ls h hs a
    simp only [SpacedL] at h
    obtain ⟨bs, l, ls', rfl, hb, hl, hr⟩ := h
    rw [XField.decAll_append, decAll_blank ht hb]
    simp only [Option.bind_some, XField.decAll, hs k (by simp) l hl]
    cases step k a with
    | none => rfl
    | some a' => exact ih hr (fun k' hk => hs k' (by simp [hk])) a'

theorem decAll_spaced {α : Type} {step : Xml → α → Option α} (ht : ∀ s a, step (.text s) a = some a)
    {ks ls : List Xml} (h : SpacedK ks ls) (hs : ∀ k ∈ ks, ∀ l, Spaced k l → ∀ a, step l a = step k a) (a : α) :
    XField.decAll step ls a = XField.decAll step ks a := by
  rcases h with rfl | ⟨-, -, h⟩
  · rfl
  · exact decAll_spacedL ht h hs a

theorem decEach_blank {α : Type} {g : Xml → Option (List α)} (ht : ∀ s, g (.text s) = some []) :
    ∀ {bs : List Xml}, (∀ b ∈ bs, IsBlank b) → X.decEach g bs = some []
  | [], _ => rfl
  | b :: bs, h => by
    obtain ⟨s, rfl, -⟩ := h b (by simp)
    have ih := decEach_blank ht (bs := bs) (fun b' hb => h b' (by simp [hb]))
    simp only [X.decEach, ht, ih]
    rfl

theorem decEach_spacedL {α : Type} {g : Xml → Option (List α)} (ht : ∀ s, g (.text s) = some []) :
    ∀ {ks ls : List Xml}, SpacedL ks ls → (∀ k ∈ ks, ∀ l, Spaced k l → g l = g k) →
      X.decEach g ls = X.decEach g ks := by
  intro ks
  induction ks with
  | nil => intro ls h _; rw [decEach_blank ht (by simpa only [SpacedL] using h)]; rfl
  | cons k ks ih =>
    intro ls h hs
    simp only [SpacedL] at h
    obtain ⟨bs, l, ls', rfl, hb, hl, hr⟩ := h
    rw [decEach_append, decEach_blank ht hb]
    simp only [Option.bind_some, X.decEach, hs k (by simp) l hl, ih hr (fun k' hk => hs k' (by simp [hk]))]
    cases g k with
    | none => rfl
    | some as => cases X.decEach g ks <;> simp

theorem decEach_spaced {α : Type} {g : Xml → Option (List α)} (ht : ∀ s, g (.text s) = some [])
    {ks ls : List Xml} (h : SpacedK ks ls) (hs : ∀ k ∈ ks, ∀ l, Spaced k l → g l = g k) :
    X.decEach g ls = X.decEach g ks := by
  rcases h with rfl | ⟨-, -, h⟩
  · rfl
  · exact decEach_spacedL ht h hs

theorem textOf_blank : ∀ {bs : List Xml}, (∀ b ∈ bs, IsBlank b) → ∀ c ∈ (textOf bs).toList, XmlText.isSpace c = true
  | [], _, c, hc => by simp [textOf] at hc
  | b :: bs, h, c, hc => by
    obtain ⟨s, rfl, hs⟩ := h b (by simp)
    have hc : c ∈ (s ++ textOf bs).toList := hc
    rw [String.toList_append, List.mem_append] at hc
    rcases hc with hc | hc
    · exact hs c hc
    · exact textOf_blank (fun b' hb => h b' (by simp [hb])) c hc

theorem spacedL_text : ∀ {ks ls : List Xml}, SpacedL ks ls → AllElems ks →
    ∀ c ∈ (textOf ls).toList, XmlText.isSpace c = true := by
  intro ks
  induction ks with
  | nil => intro ls h _; exact textOf_blank (by simpa only [SpacedL] using h)
  | cons k ks ih =>
    intro ls h ha c hc
    simp only [SpacedL] at h
    obtain ⟨bs, l, ls', rfl, hb, hl, hr⟩ := h
    obtain ⟨n, as, js, rfl⟩ := ha k (by simp)
    obtain ⟨js', rfl, -⟩ := spaced_elem.1 hl
    rw [textOf_append, String.toList_append, List.mem_append] at hc
    rcases hc with hc | hc
    · exact textOf_blank hb c hc
    · exact ih hr (fun k hk => ha k (by simp [hk])) c hc

/-- The text in a content of elements is white space. -/
theorem spacedK_blank {ks ls : List Xml} (ha : AllElems ks) (h : SpacedK ks ls) :
    ∀ c ∈ (textOf ls).toList, XmlText.isSpace c = true := by
  rcases h with rfl | ⟨-, -, h⟩
  · have : textOf ls = "" := by
      induction ls with
      | nil => rfl
      | cons k ks ih =>
        obtain ⟨n, as, js, rfl⟩ := ha k (by simp)
        exact ih fun k hk => ha k (by simp [hk])
    rw [this]; simp
  · exact spacedL_text h ha

/-! ### Codecs -/

/-- What the codec writes is tidy, and white space between elements does not matter when it is read. -/
class XSafe {α : Type} (c : XCodec α) : Prop where
  safe : ∀ n a x, c.enc n a = some (some x) → ∀ y, Spaced x y → ∀ old, c.dec y old = c.dec x old
  tidy : ∀ n a x, OKName n → c.enc n a = some (some x) → x.Tidy

/-- `XSafe` for a field. -/
class XFieldSafe {α : Type} (f : XField α) : Prop where
  safe : ∀ a xs, f.enc a = some xs → ∀ x ∈ xs, ∀ y, Spaced x y → ∀ old, f.dec y old = f.dec x old
  tidy : ∀ a xs, f.enc a = some xs → ∀ x ∈ xs, x.Tidy

/-- `XSafe` for the fields of a struct. -/
class XFieldsSafe {β : Type} (F : XFields β) : Prop where
  attrs : ∀ b, ∀ kv ∈ F.encAttrs b, OKName kv.1 ∧ Allowed kv.2
  safe : F.elemNames.Nodup → ∀ b ks, F.encKids b = some ks → ∀ k ∈ ks, ∀ l, Spaced k l → ∀ b',
    F.setKid l b' = F.setKid k b'
  tidy : ∀ b ks, F.encKids b = some ks → ∀ k ∈ ks, k.Tidy
  elems : F.texts = 0 → ∀ b ks, F.encKids b = some ks → AllElems ks
  text : F.elemNames = [] → F.texts ≤ 1 → ∀ b ks, F.encKids b = some ks →
    ∃ s, ks = textKids s ∧ (F.texts = 0 → s = "")

theorem tidy_textKids {s : String} (h : Allowed s) : ∀ k ∈ textKids s, k.Tidy := by
  intro k hk
  unfold textKids at hk
  split at hk
  · simp at hk
  · rename_i hs
    simp only [List.mem_singleton] at hk; subst hk
    simp only [Tidy]; exact ⟨hs, h⟩

theorem textKids_shape (s : String) : AllElems (textKids s) ∨ ∃ t, textKids s = [.text t] := by
  unfold textKids
  split
  · exact .inl fun k hk => by simp at hk
  · exact .inr ⟨s, rfl⟩

theorem tidy_elem {n : String} {as : List (String × String)} {ks : List Xml} (hn : OKName n)
    (has : (∀ kv ∈ as, OKName kv.1 ∧ Allowed kv.2) ∧ (as.map Prod.fst).Nodup) (hk : AllElems ks ∨ ∃ s, ks = [.text s])
    (h : ∀ k ∈ ks, k.Tidy) : Tidy (.elem n as ks) := by
  simp only [Tidy]; exact ⟨hn, has, hk, tidyL_iff.2 h⟩

theorem tidy_isElem {x : Xml} {n : String} (h : x.isElem n = true) : ∃ n as ls, x = .elem n as ls := by
  obtain ⟨as, ks, rfl⟩ := Xml.isElem_elim h
  exact ⟨_, _, _, rfl⟩

instance {α : Type} (c : XText α) [C : XTextSafe c] : XSafe (XCodec.simple c) where
  safe n a x h y hy old := by
    simp only [XCodec.simple, Option.some.injEq] at h; subst h
    rw [spaced_textKids hy]
  tidy n a x hn h := by
    simp only [XCodec.simple, Option.some.injEq] at h; subst h
    exact tidy_elem hn (by simp) (textKids_shape _) (tidy_textKids (C.allowed a))

namespace XField

variable {α : Type} {c : XCodec α}

theorem enc_mem {n : String} {a : α} {xs : List Xml} (h : (c.enc n a).map (·.toList) = some xs) :
    ∀ x ∈ xs, c.enc n a = some (some x) := by
  intro x hx
  obtain ⟨o, ho, rfl⟩ := Option.map_eq_some_iff.1 h
  rw [ho]; simpa using hx

instance (n : String) (oe : Bool) [N : OKName n] [C : XSafe c] : XFieldSafe (plain n oe c) where
  safe a xs h x hx y hy old := by
    simp only [plain] at h ⊢
    split at h
    · simp only [Option.some.injEq] at h; subst h; simp at hx
    · exact C.safe n a x (enc_mem h x hx) y hy old
  tidy a xs h x hx := by
    simp only [plain] at h
    split at h
    · simp only [Option.some.injEq] at h; subst h; simp at hx
    · exact C.tidy n a x N (enc_mem h x hx)

instance (n : String) [N : OKName n] [C : XSafe c] : XFieldSafe (ptr n c) where
  safe a xs h x hx y hy old := by
    cases a with
    | none => simp only [ptr, Option.some.injEq] at h; subst h; simp at hx
    | some a =>
      simp only [ptr] at h ⊢
      rw [C.safe n a x (enc_mem h x hx) y hy]
  tidy a xs h x hx := by
    cases a with
    | none => simp only [ptr, Option.some.injEq] at h; subst h; simp at hx
    | some a => exact C.tidy n a x N (enc_mem h x hx)

theorem encList_mem {n : String} {oe : Bool} : ∀ {as : List α} {ks : List Xml},
    encList n oe c as = some ks → ∀ x ∈ ks, ∃ a ∈ as, c.enc n a = some (some x)
  | [], ks, h, x, hx => by simp only [encList, Option.some.injEq] at h; subst h; simp at hx
  | a :: as, ks, h, x, hx => by
    simp only [encList] at h
    split at h
    · obtain ⟨b, hb, e⟩ := encList_mem h x hx; exact ⟨b, by simp [hb], e⟩
    · split at h
      · cases h
      · rename_i o ho
        obtain ⟨ks', hk, rfl⟩ := Option.map_eq_some_iff.1 h
        rcases List.mem_append.1 hx with hx | hx
        · exact ⟨a, by simp, by rw [ho]; simpa using hx⟩
        · obtain ⟨b, hb, e⟩ := encList_mem hk x hx; exact ⟨b, by simp [hb], e⟩

instance (n : String) (oe : Bool) [N : OKName n] [C : XSafe c] : XFieldSafe (list n oe c) where
  safe p xs h x hx y hy old := by
    obtain ⟨a, -, e⟩ := encList_mem h x hx
    simp only [list, C.safe n a x e y hy]
  tidy p xs h x hx := by
    obtain ⟨a, -, e⟩ := encList_mem h x hx
    exact C.tidy n a x N e

theorem nlist_enc_mem {p n : String} {oe : Bool} {as : PSlice α} {xs : List Xml}
    (h : (nlist p n oe c).enc as = some xs) : ∀ x ∈ xs, ∃ ks, x = .elem p [] ks ∧ encList n oe c as.elems = some ks := by
  intro x hx
  by_cases e : as = .nil
  · subst e; simp only [nlist, Option.some.injEq] at h; subst h; simp at hx
  · rw [nlist_enc_ne_nil e] at h
    obtain ⟨ks, hk, rfl⟩ := Option.map_eq_some_iff.1 h
    simp only [List.mem_singleton] at hx
    exact ⟨ks, hx, hk⟩

theorem encList_elems [L : XLawful c] {n : String} {oe : Bool} {as : List α} {ks : List Xml}
    (h : encList n oe c as = some ks) : AllElems ks := fun k hk => tidy_isElem (encList_named h k hk)

instance (p n : String) (oe : Bool) [P : OKName p] [N : OKName n] [L : XLawful c] [C : XSafe c] :
    XFieldSafe (nlist p n oe c) where
  safe as xs h x hx y hy old := by
    obtain ⟨ks, rfl, hk⟩ := nlist_enc_mem h x hx
    obtain ⟨ls, rfl, hl⟩ := spaced_elem.1 hy
    simp only [nlist, Xml.kids]
    refine decAll_spaced (fun s a => rfl) hl (fun k hkm l hkl a => ?_) old
    obtain ⟨b, -, e⟩ := encList_mem hk k hkm
    simp only [decInner, spaced_isElem hkl, C.safe n b k e l hkl]
  tidy as xs h x hx := by
    obtain ⟨ks, rfl, hk⟩ := nlist_enc_mem h x hx
    refine tidy_elem P (by simp) (.inl (encList_elems hk)) fun k hkm => ?_
    obtain ⟨b, -, e⟩ := encList_mem hk k hkm
    exact C.tidy n b k N e

instance (p n : String) [P : OKName p] [N : OKName n] [L : XLawful c] [C : XSafe c] : XFieldSafe (nptr p n c) where
  safe o xs h x hx y hy old := by
    cases o with
    | none => simp only [nptr, Option.some.injEq] at h; subst h; simp at hx
    | some a =>
      simp only [nptr] at h ⊢
      obtain ⟨o, ho, rfl⟩ := Option.map_eq_some_iff.1 h
      simp only [List.mem_singleton] at hx; subst hx
      obtain ⟨ls, rfl, hl⟩ := spaced_elem.1 hy
      simp only [Xml.kids]
      refine decAll_spaced (fun s a => rfl) hl (fun k hkm l hkl b => ?_) old
      have e : o = some k := by simpa using hkm
      subst e
      simp only [spaced_isElem hkl, C.safe n a k ho l hkl]
  tidy o xs h x hx := by
    cases o with
    | none => simp only [nptr, Option.some.injEq] at h; subst h; simp at hx
    | some a =>
      simp only [nptr] at h
      obtain ⟨o, ho, rfl⟩ := Option.map_eq_some_iff.1 h
      simp only [List.mem_singleton] at hx; subst hx
      refine tidy_elem P (by simp) (.inl fun k hk => ?_) fun k hk => ?_
      · have e : o = some k := by simpa using hk
        subst e
        exact tidy_isElem (L.named n a k ho)
      · have e : o = some k := by simpa using hk
        subst e
        exact C.tidy n a k N ho

theorem slice_enc_mem {c : XCodec (List α)} {n : String} {as : PSlice α} {xs : List Xml}
    (h : (slice n c).enc as = some xs) : ∀ x ∈ xs, c.enc n as.elems = some (some x) := by
  intro x hx
  cases as with
  | nil => simp only [slice, Option.some.injEq] at h; subst h; simp at hx
  | nilSlice => exact enc_mem h x hx
  | list as => exact enc_mem h x hx

instance (n : String) (c : XCodec (List α)) [N : OKName n] [C : XSafe c] : XFieldSafe (slice n c) where
  safe as xs h x hx y hy old := by
    simp only [slice, C.safe n _ x (slice_enc_mem h x hx) y hy]
  tidy as xs h x hx := C.tidy n _ x N (slice_enc_mem h x hx)

end XField

/-! ### Structs -/

instance : XFieldsSafe XFields.nil where
  attrs b kv h := by simp [XFields.encAttrs] at h
  safe _ b ks h k hk := by simp only [XFields.encKids, Option.some.injEq] at h; subst h; simp at hk
  tidy b ks h k hk := by simp only [XFields.encKids, Option.some.injEq] at h; subst h; simp at hk
  elems _ b ks h k hk := by simp only [XFields.encKids, Option.some.injEq] at h; subst h; simp at hk
  text _ _ b ks h := by
    simp only [XFields.encKids, Option.some.injEq] at h; subst h
    exact ⟨"", rfl, fun _ => rfl⟩

instance {α β : Type} (z : α) (F : XFields β) [L : XFieldsSafe F] : XFieldsSafe (.skip z F) where
  attrs b := L.attrs b.2
  safe h2 b ks h k hk l hl b' := by simp only [XFields.setKid, L.safe h2 b.2 ks h k hk l hl]
  tidy b := L.tidy b.2
  elems ht b := L.elems ht b.2
  text h1 h2 b := L.text h1 h2 b.2

instance {α β : Type} (n : String) (oe : Bool) (c : XText α) (F : XFields β) [N : OKName n] [C : XTextSafe c]
    [L : XFieldsSafe F] : XFieldsSafe (.attr n oe c F) where
  attrs b kv h := by
    simp only [XFields.encAttrs] at h
    split at h
    · exact L.attrs b.2 kv h
    · rcases List.mem_cons.1 h with rfl | h
      · exact ⟨N, C.allowed b.1⟩
      · exact L.attrs b.2 kv h
  safe h2 b ks h k hk l hl b' := by simp only [XFields.setKid, L.safe h2 b.2 ks h k hk l hl]
  tidy b := L.tidy b.2
  elems ht b := L.elems ht b.2
  text h1 h2 b := L.text h1 h2 b.2

instance {α β : Type} (n : String) (c : XText α) (F : XFields β) [N : OKName n] [C : XTextSafe c]
    [L : XFieldsSafe F] : XFieldsSafe (.attrPtr n c F) where
  attrs b kv h := by
    simp only [XFields.encAttrs] at h
    split at h
    · exact L.attrs b.2 kv h
    · rcases List.mem_cons.1 h with rfl | h
      · exact ⟨N, C.allowed _⟩
      · exact L.attrs b.2 kv h
  safe h2 b ks h k hk l hl b' := by simp only [XFields.setKid, L.safe h2 b.2 ks h k hk l hl]
  tidy b := L.tidy b.2
  elems ht b := L.elems ht b.2
  text h1 h2 b := L.text h1 h2 b.2

instance {β : Type} (F : XFields β) [L : XFieldsSafe F] : XFieldsSafe (.chardata F) where
  attrs b := L.attrs b.2
  safe h2 b ks h k hk l hl b' := by
    simp only [XFields.encKids] at h
    obtain ⟨ks', hk', rfl⟩ := Option.map_eq_some_iff.1 h
    simp only [XFields.setKid]
    rcases List.mem_append.1 hk with hk | hk
    · unfold textKids at hk
      split at hk
      · simp at hk
      · simp only [List.mem_singleton] at hk; subst hk
        rw [spaced_text.1 hl]
    · rw [L.safe h2 b.2 ks' hk' k hk l hl]
  tidy b ks h k hk := by
    simp only [XFields.encKids] at h
    obtain ⟨ks', hk', rfl⟩ := Option.map_eq_some_iff.1 h
    rcases List.mem_append.1 hk with hk | hk
    · exact tidy_textKids (allowed_sanitize _) k hk
    · exact L.tidy b.2 ks' hk' k hk
  elems ht := by simp [XFields.texts] at ht
  text h1 h2 b ks h := by
    simp only [XFields.encKids] at h
    obtain ⟨ks', hk', rfl⟩ := Option.map_eq_some_iff.1 h
    have h0 : F.texts = 0 := by simp only [XFields.texts] at h2; omega
    obtain ⟨s, rfl, hs⟩ := L.text h1 (by omega) b.2 ks' hk'
    rw [hs h0]
    exact ⟨sanitize b.1, by simp [textKids], fun h => by simp [XFields.texts] at h⟩

instance {α β : Type} (f : XField α) (F : XFields β) [C' : XFieldLawful f] [L' : XFieldsLawful F] [C : XFieldSafe f]
    [L : XFieldsSafe F] : XFieldsSafe (.elem f F) where
  attrs b := L.attrs b.2
  safe h2 b ks h k hk l hl b' := by
    have h2 : (f.name :: F.elemNames).Nodup := h2
    obtain ⟨k₁, k₂, hk₁, hk₂, rfl⟩ := encKids_elem h
    simp only [XFields.setKid, spaced_isElem hl]
    rcases List.mem_append.1 hk with hk | hk
    · simp only [C'.named b.1 k₁ hk₁ k hk, if_true, C.safe b.1 k₁ hk₁ k hk l hl]
    · rcases L'.kids b.2 k₂ hk₂ k hk with ⟨n, hn, he⟩ | ⟨s, rfl⟩
      · have : k.isElem f.name = false := XField.isElem_ne he fun e => (List.nodup_cons.1 h2).1 (e ▸ hn)
        simp only [this, Bool.false_eq_true, if_false, L.safe (List.nodup_cons.1 h2).2 b.2 k₂ hk₂ k hk l hl]
      · rw [spaced_text.1 hl]
  tidy b ks h k hk := by
    obtain ⟨k₁, k₂, hk₁, hk₂, rfl⟩ := encKids_elem h
    rcases List.mem_append.1 hk with hk | hk
    · exact C.tidy b.1 k₁ hk₁ k hk
    · exact L.tidy b.2 k₂ hk₂ k hk
  elems ht b ks h k hk := by
    obtain ⟨k₁, k₂, hk₁, hk₂, rfl⟩ := encKids_elem h
    rcases List.mem_append.1 hk with hk | hk
    · exact tidy_isElem (C'.named b.1 k₁ hk₁ k hk)
    · exact L.elems ht b.2 k₂ hk₂ k hk
  text h1 := by simp [XFields.elemNames] at h1

/-- A struct without character data does not notice white space if its fields do not. -/
theorem dec_spaced {β : Type} (F : XFields β) (ht : F.texts = 0) {x y : Xml} (h : Spaced x y)
    (hs : ∀ k ∈ x.kids, ∀ l, Spaced k l → ∀ b, F.setKid l b = F.setKid k b) (b : β) : F.dec y b = F.dec x b := by
  simp only [XFields.dec, spaced_attrs h]
  cases F.decAttrs x.attrs b with
  | none => rfl
  | some b₁ =>
    simp only [decAll_spaced (step := F.setKid) (setKid_text F) (spaced_kids h) hs b₁, F.setText_of_none ht]

/-- An element that holds a text. -/
def HoldsText (x : Xml) : Prop := ∃ n as s, x = .elem n as (textKids s)

theorem holdsText_append {xs ys : List Xml} (hx : ∀ k ∈ xs, HoldsText k) (hy : ∀ k ∈ ys, HoldsText k) :
    ∀ k ∈ xs ++ ys, HoldsText k := by
  intro k hk
  rcases List.mem_append.1 hk with hk | hk
  · exact hx k hk
  · exact hy k hk

theorem plain_holdsText {α : Type} {c : XText α} {n : String} {oe : Bool} {a : α} {xs : List Xml}
    (h : (XField.plain n oe (XCodec.simple c)).enc a = some xs) : ∀ k ∈ xs, HoldsText k := by
  intro k hk
  simp only [XField.plain] at h
  split at h
  · simp only [Option.some.injEq] at h; subst h; simp at hk
  · have e := XField.enc_mem h k hk
    simp only [XCodec.simple, Option.some.injEq] at e
    exact ⟨_, _, _, e.symm⟩

/-- A struct does not notice white space between elements that hold texts. -/
theorem dec_holdsText {β : Type} (F : XFields β) (ht : F.texts = 0) {x y : Xml} (h : Spaced x y)
    (hs : ∀ k ∈ x.kids, HoldsText k) (b : β) : F.dec y b = F.dec x b := by
  refine dec_spaced F ht h (fun k hk l hl b => ?_) b
  obtain ⟨n, as, s, rfl⟩ := hs k hk
  rw [spaced_textKids hl]

theorem encAttrs_sublist {β : Type} (F : XFields β) (b : β) : ((F.encAttrs b).map Prod.fst).Sublist F.attrNames := by
  induction F with
  | nil => simp [XFields.encAttrs]
  | skip z F ih => exact ih b.2
  | chardata F ih => exact ih b.2
  | elem f F ih => exact ih b.2
  | attr n oe c F ih =>
    simp only [XFields.encAttrs, XFields.attrNames]
    split
    · exact (ih b.2).cons _
    · exact (ih b.2).cons_cons _
  | attrPtr n c F ih =>
    simp only [XFields.encAttrs, XFields.attrNames]
    split
    · exact (ih b.2).cons _
    · exact (ih b.2).cons_cons _

theorem encAttrs_nodup {β : Type} (F : XFields β) (h : F.attrNames.Nodup) (b : β) :
    ((F.encAttrs b).map Prod.fst).Nodup := h.sublist (encAttrs_sublist F b)

theorem xstruct_safe {σ β : Type} (F : XFields β) (toP : σ → β) (ofP : β → σ) [L : XFieldsSafe F]
    (h1 : F.attrNames.Nodup) (h2 : F.elemNames.Nodup) (ht : F.texts = 0 ∨ (F.elemNames = [] ∧ F.texts ≤ 1)) :
    XSafe (XCodec.struct F toP ofP) where
  safe n a x h y hy old := by
    simp only [XCodec.struct] at h ⊢
    obtain ⟨ks, hk, e⟩ := Option.map_eq_some_iff.1 h
    simp only [Option.some.injEq] at e; subst e
    rcases ht with ht | ⟨h0, h3⟩
    · rw [dec_spaced F ht hy (fun k hkm l hl b => L.safe h2 _ ks hk k hkm l hl b)]
    · obtain ⟨s, rfl, -⟩ := L.text h0 h3 _ ks hk
      rw [spaced_textKids hy]
  tidy n a x hn h := by
    simp only [XCodec.struct] at h
    obtain ⟨ks, hk, e⟩ := Option.map_eq_some_iff.1 h
    simp only [Option.some.injEq] at e; subst e
    refine tidy_elem hn ⟨L.attrs _, encAttrs_nodup F h1 _⟩ ?_ (L.tidy _ ks hk)
    rcases ht with ht | ⟨h0, h3⟩
    · exact .inl (L.elems ht _ ks hk)
    · obtain ⟨s, rfl, -⟩ := L.text h0 h3 _ ks hk
      exact textKids_shape s

theorem fresh_safe {α : Type} {c : XCodec α} (L : XSafe c) : XSafe (X.fresh c) :=
  ⟨fun n a x h y hy _ => L.safe n a x h y hy _, L.tidy⟩

theorem safe_empty {α : Type} {c : XCodec α} (L : XSafe c) (e : α → Bool) : XSafe { c with empty := e } :=
  ⟨L.safe, L.tidy⟩

/-! ### References written as text -/

theorem space_of_blank {c : Char} (h : XmlText.isSpace c = true) : Xml.isSpace c = true := by
  simp only [XmlText.isSpace, Bool.or_eq_true, decide_eq_true_eq] at h
  rcases h with ((rfl | rfl) | rfl) | rfl <;> decide

theorem trim_blank {s : String} (h : ∀ c ∈ s.toList, XmlText.isSpace c = true) : trim s = "" := by
  have : s.toList.dropWhile Xml.isSpace = [] := by
    rw [← List.append_nil s.toList]
    exact List.dropWhile_append_of_pos fun c hc => space_of_blank (h c hc)
  rw [trim, trimChars, this]; rfl

theorem xikev2_safe {σ β : Type} (F : XFields β) (toP : σ → BOMReference × β) (ofP : BOMReference × β → σ)
    (isRef : β → Bool) [L : XFieldsSafe F] (h1 : F.attrNames.Nodup) (h2 : F.elemNames.Nodup) (h3 : F.texts = 0) :
    XSafe (X.ikev2 F toP ofP isRef) where
  safe n v x h y hy old := by
    simp only [X.ikev2] at h ⊢
    split at h
    · simp only [Option.some.injEq] at h; subst h
      rw [spaced_textKids hy]
    · simp only [XCodec.struct] at h
      obtain ⟨ks, hk, e⟩ := Option.map_eq_some_iff.1 h
      simp only [Option.some.injEq] at e; subst e
      have hk : F.encKids (toP v).2 = some ks := hk
      obtain ⟨ls, rfl, hl⟩ := spaced_elem.1 hy
      have ha := L.elems h3 _ ks hk
      have h1' : trim (textOf ks) = "" := trim_blank (spacedK_blank ha (.inl rfl))
      have h2' : trim (textOf ls) = "" := trim_blank (spacedK_blank ha hl)
      have hd := dec_spaced F h3 hy (fun k hkm l hl b => L.safe h2 _ ks hk k hkm l hl b) F.zero
      have key : ∀ z : Xml, (XFields.chardata F).dec z ("", F.zero) = (F.dec z F.zero).map (textOf z.kids, ·) := by
        intro z
        simp only [XFields.dec]
        rw [decAttrs_pass (F := F) (fun _ _ _ => rfl)]
        cases F.decAttrs z.attrs F.zero with
        | none => rfl
        | some b₁ =>
          simp only [Option.map_some]
          rw [decKids_pass (F := F) (fun _ _ _ => rfl)]
          cases XField.decAll F.setKid z.kids b₁ with
          | none => rfl
          | some b₂ => simp only [Option.map_some, XFields.setText, F.setText_of_none h3]
      rw [key, key, hd]
      cases F.dec _ F.zero with
      | none => rfl
      | some p => simp only [Option.map_some, Xml.kids, h1', h2', ne_eq, not_true, false_and, if_false]
  tidy n v x hn h := by
    simp only [X.ikev2] at h
    split at h
    · simp only [Option.some.injEq] at h; subst h
      exact tidy_elem hn (by simp) (textKids_shape _) (tidy_textKids (allowed_sanitize _))
    · simp only [XCodec.struct] at h
      obtain ⟨ks, hk, e⟩ := Option.map_eq_some_iff.1 h
      simp only [Option.some.injEq] at e; subst e
      exact tidy_elem hn ⟨L.attrs (toP v).2, encAttrs_nodup F h1 _⟩ (.inl (L.elems h3 _ ks hk)) (L.tidy _ ks hk)

/-! ### Recursive types -/

instance {α : Type} (z : α) : XSafe (X.bottom z) where
  safe n a x h := by simp [X.bottom] at h
  tidy n a x _ h := by simp [X.bottom] at h

theorem xknot_safe {α : Type} {zero : α} {N : Nat → XCodec α} {height : α → Nat}
    (K : XKnotted zero N height) (S : ∀ n, XSafe (N n)) : XSafe (X.knot zero N height) where
  safe k a x h y hy old := by
    let n := max (height a) (max (x.depth + 1) (y.depth + 1))
    have hs := K.enc (height a) n a (Nat.le_refl _) (by omega)
    have hd : ∀ z, z.depth < n → (X.knot zero N height).dec z old = (N n).dec z old := fun z hz =>
      K.dec _ _ z _ (Nat.lt_succ_self _) hz
    rw [hd x (by omega), hd y (by omega)]
    exact (S n).safe k a x (hs.enc k ▸ h) y hy old
  tidy k a x hk h := (S (height a)).tidy k a x hk h

/-! ### Loops -/

theorem encEach_mem {α : Type} {f : α → Option (List Xml)} : ∀ {as : List α} {ks : List Xml},
    X.encEach f as = some ks → ∀ k ∈ ks, ∃ a ∈ as, ∃ ls, f a = some ls ∧ k ∈ ls
  | [], ks, h, k, hk => by simp only [X.encEach, Option.some.injEq] at h; subst h; simp at hk
  | a :: as, ks, h, k, hk => by
    simp only [X.encEach] at h
    split at h
    · cases h
    · rename_i k₁ hk₁
      obtain ⟨k₂, hk₂, rfl⟩ := Option.map_eq_some_iff.1 h
      rcases List.mem_append.1 hk with hk | hk
      · exact ⟨a, by simp, k₁, hk₁, hk⟩
      · obtain ⟨b, hb, r⟩ := encEach_mem hk₂ k hk
        exact ⟨b, by simp [hb], r⟩

end Verif
