import Verif.Spec.XmlSays
import Verif.Xml.StructLaws
import Verif.Xml.Read

/-!
# What is written was read

GENERATED by `tools/gen_xsays.py`; do not edit by hand.  `SayX P Q n c I`: if everything said in the elements less than
`n` deep that the codec `c` reads, one into the other, meets `P`, the values read meet `I`, and what is said in the
elements that `c` writes for them meets `Q`.
-/

namespace Verif

open Xml (sanitize trim textOf textKids)

set_option linter.unusedSectionVars false
set_option linter.unusedSimpArgs false
set_option linter.unusedVariables false

variable [XFloatIO]

/-- What `P`, on words that are read, and `Q`, on words that are written, have to do with each other. -/
structure Rules (P Q : String → Prop) : Prop where
  nothing : P ""
  plain : ∀ t, NoText t → Q t
  text : ∀ s, P s → Q (sanitize s)
  trimmed : ∀ s, P s → Q (sanitize (trim s))

/-- Everything said in `x` meets `P`. -/
def Heard (P : String → Prop) (x : Xml) : Prop := ∀ s, x.Says s → P s
/-- `x` is an element, and everything said in it meets `Q`. -/
def Wrote (Q : String → Prop) (x : Xml) : Prop := (∃ n as ks, x = .elem n as ks) ∧ Heard Q x

variable {P Q : String → Prop} {n : Nat}

theorem Heard.kid {x k : Xml} (h : Heard P x) (hk : k ∈ x.kids) : Heard P k := by
  cases x with
  | text s => cases hk
  | elem m as ks => exact fun s hs => h s (.kid hk hs)
theorem Heard.attr {x : Xml} (h : Heard P x) {kv : String × String} (hk : kv ∈ x.attrs) : P kv.2 := by
  cases x with
  | text s => cases hk
  | elem m as ks => exact h _ (.attr (k := kv.1) hk)
theorem Heard.text (hR : Rules P Q) {x : Xml} (h : Heard P x) : P (textOf x.kids) := by
  cases x with
  | text s => exact hR.nothing
  | elem m as ks => exact h _ .text
theorem kid_depth {x k : Xml} (hx : x.depth ≤ n) (hk : k ∈ x.kids) : k.depth < n := by
  cases x with
  | text s => cases hk
  | elem m as ks => have := depth_kid (n := m) (as := as) (ks := ks) hk; omega
theorem kid_depth' {x k : Xml} (hx : x.depth < n) (hk : k ∈ x.kids) : k.depth < n := kid_depth (by omega) hk

theorem heard_elem {m : String} {as : List (String × String)} {ks : List Xml} (h1 : ∀ kv ∈ as, Q kv.2)
    (h2 : ∀ k ∈ ks, Heard Q k) (h3 : Q (textOf ks)) : Wrote Q (.elem m as ks) := by
  refine ⟨⟨_, _, _, rfl⟩, fun s hs => ?_⟩
  cases hs with
  | attr h => exact h1 _ h
  | text => exact h3
  | kid h hs => exact h2 _ h _ hs

theorem textOf_wrote : ∀ {ks : List Xml}, (∀ k ∈ ks, Wrote Q k) → textOf ks = ""
  | [], _ => rfl
  | k :: ks, h => by
    obtain ⟨⟨m, as, ls, rfl⟩, _⟩ := h k List.mem_cons_self
    exact textOf_wrote (ks := ks) fun i hi => h i (List.mem_cons_of_mem _ hi)

theorem none_in {α : Type} {p : α → Prop} : ∀ a ∈ ([] : List α), p a := nofun
theorem not_one {α : Type} {p : α → Prop} : ∀ a ∈ (none : Option α), p a := nofun
theorem Rules.blank (hR : Rules P Q) : Q "" := hR.plain _ (.inr (.inr (by simp)))
theorem Rules.zero (hR : Rules P Q) : Q (sanitize "") := hR.text _ hR.nothing

/-- An element without character data of its own. -/
theorem wrote_elem (hR : Rules P Q) {m : String} {as : List (String × String)} {ks : List Xml} (h1 : ∀ kv ∈ as, Q kv.2)
    (h2 : ∀ k ∈ ks, Wrote Q k) : Wrote Q (.elem m as ks) :=
  heard_elem h1 (fun k hk => (h2 k hk).2) (by rw [textOf_wrote h2]; exact hR.blank)
theorem heard_textKids {t : String} : ∀ k ∈ textKids t, Heard Q k := by
  intro k hk
  unfold textKids at hk
  split at hk
  · cases hk
  · simp only [List.mem_singleton] at hk
    subst hk
    intro s hs
    cases hs
theorem wrote_text {m t : String} {as : List (String × String)} (h1 : ∀ kv ∈ as, Q kv.2) (h : Q t) :
    Wrote Q (.elem m as (textKids t)) :=
  heard_elem h1 heard_textKids (by rw [textOf_textKids]; exact h)

/-- See the header; for types written as text. -/
structure SayT {α : Type} (P Q : String → Prop) (c : XText α) (I : α → Prop) : Prop where
  zero : I c.zero
  enc : ∀ a, I a → Q (c.enc a)
  dec : ∀ s a, P s → c.dec s = some a → I a
/-- See the header. -/
structure SayX {α : Type} (P Q : String → Prop) (n : Nat) (c : XCodec α) (I : α → Prop) : Prop where
  zero : I c.zero
  enc : ∀ m a x, I a → c.enc m a = some (some x) → Wrote Q x
  dec : ∀ x a b, x.depth < n → Heard P x → I a → c.dec x a = some b → I b
/-- The same for a field. -/
structure SayE {α : Type} (P Q : String → Prop) (n : Nat) (f : XField α) (I : α → Prop) : Prop where
  zero : I f.zero
  enc : ∀ a ks, I a → f.enc a = some ks → ∀ k ∈ ks, Wrote Q k
  dec : ∀ x a b, x.depth < n → Heard P x → I a → f.dec x a = some b → I b
/-- The same for the fields of a struct. -/
structure SayFs {β : Type} (P Q : String → Prop) (n : Nat) (F : XFields β) (K : β → Prop) : Prop where
  zero : K F.zero
  attrs : ∀ b, K b → ∀ kv ∈ F.encAttrs b, Q kv.2
  kids : ∀ b ks, K b → F.encKids b = some ks →
    (∀ k ∈ ks, Heard Q k) ∧ (F.texts = 0 → textOf ks = "") ∧ (F.texts ≤ 1 → Q (textOf ks))
  setAttr : ∀ kv b b', P kv.2 → K b → F.setAttr kv b = some b' → K b'
  setKid : ∀ x b b', x.depth < n → Heard P x → K b → F.setKid x b = some b' → K b'
  setText : ∀ s b, P s → K b → K (F.setText s b)

theorem sayt_string (hR : Rules P Q) : SayT P Q XText.string (fun s => Q (sanitize s)) :=
  ⟨hR.zero, fun _ h => h, fun s a hs h => by cases h; exact hR.text _ hs⟩
theorem sayt_bomReference (hR : Rules P Q) : SayT P Q XText.bomReference (fun s => Q (sanitize s.val)) :=
  ⟨hR.zero, fun _ h => h, fun s a hs h => by cases h; exact hR.text _ hs⟩
theorem sayt_mute {α : Type} {c : XText α} (h : ∀ a, Q (c.enc a)) : SayT P Q c (fun _ => True) :=
  ⟨trivial, fun a _ => h a, fun _ _ _ _ => trivial⟩
theorem noText_chars {t : String} (h : ∀ c ∈ t.toList, isFloatChar c = true) : NoText t := by
  refine .inr (.inr fun c hc => ?_)
  have := h c hc
  simp only [isFloatChar, Bool.or_eq_true, decide_eq_true_eq, digitChar_iff_range] at this
  exact this
theorem sayt_bool (hR : Rules P Q) : SayT P Q XText.bool (fun _ => True) :=
  sayt_mute fun a => by cases a <;> exact hR.plain _ (by simp [NoText, XText.bool])
theorem sayt_int (hR : Rules P Q) : SayT P Q XText.int (fun _ => True) :=
  sayt_mute fun a => hR.plain _ (noText_chars fun c hc => by
    simp only [XText.int, String.toList_ofList] at hc
    rcases intChars_chars a c hc with h | rfl
    · simp [isFloatChar, h]
    · decide)
theorem sayt_f32 (hR : Rules P Q) : SayT P Q XText.f32 (fun _ => True) :=
  sayt_mute fun a => hR.plain _ (noText_chars (XFloatIO.fmt32_chars a))
theorem sayt_f64 (hR : Rules P Q) : SayT P Q XText.f64 (fun _ => True) :=
  sayt_mute fun a => hR.plain _ (noText_chars (XFloatIO.fmt64_chars a))

theorem sayx_simple {α : Type} {c : XText α} {I : α → Prop} (hR : Rules P Q) (h : SayT P Q c I) :
    SayX P Q n (XCodec.simple c) I := by
  refine ⟨h.zero, fun m a x ha he => ?_, fun x a b _ hx _ hd => h.dec _ _ (hx.text hR) hd⟩
  simp only [XCodec.simple, Option.some.injEq] at he
  subst he
  exact wrote_text (by simp) (h.enc a ha)

theorem sayx_toList {α : Type} {c : XCodec α} {I : α → Prop} (h : SayX P Q n c I) {m : String} {a : α} {ks : List Xml}
    (ha : I a) (he : (c.enc m a).map (·.toList) = some ks) : ∀ k ∈ ks, Wrote Q k := by
  rw [Option.map_eq_some_iff] at he
  obtain ⟨o, ho, rfl⟩ := he
  intro k hk
  cases o with
  | none => cases hk
  | some x =>
    simp only [Option.toList_some, List.mem_singleton] at hk
    subst hk
    exact h.enc m a _ ha ho

theorem decAll_keeps {α : Type} {f : Xml → α → Option α} {G : Xml → Prop} {I : α → Prop}
    (h : ∀ x a b, G x → I a → f x a = some b → I b) : ∀ (xs : List Xml) (a b : α), (∀ x ∈ xs, G x) → I a →
    XField.decAll f xs a = some b → I b
  | [], a, b, _, ha, e => by cases e; exact ha
  | x :: xs, a, b, hx, ha, e => by
    simp only [XField.decAll] at e
    cases hf : f x a with
    | none => rw [hf] at e; cases e
    | some a' =>
      rw [hf] at e
      exact decAll_keeps h xs a' b (fun y hy => hx y (List.mem_cons_of_mem _ hy))
        (h _ _ _ (hx x List.mem_cons_self) ha hf) e

theorem saye_plain {α : Type} {c : XCodec α} {I : α → Prop} {m : String} {oe : Bool} (h : SayX P Q n c I) :
    SayE P Q n (.plain m oe c) I := by
  refine ⟨h.zero, fun a ks ha he => ?_, h.dec⟩
  simp only [XField.plain] at he
  split at he
  · cases he; simp
  · exact sayx_toList h ha he

theorem saye_ptr {α : Type} {c : XCodec α} {I : α → Prop} {m : String} (h : SayX P Q n c I) :
    SayE P Q n (.ptr m c) (fun o => ∀ a ∈ o, I a) := by
  refine ⟨nofun, fun a ks ha he => ?_, fun x a b hx hr ha hd => ?_⟩
  · cases a with
    | none => cases he; simp
    | some a => exact sayx_toList h (ha a rfl) he
  · simp only [XField.ptr, Option.map_eq_some_iff] at hd
    obtain ⟨b', hd, rfl⟩ := hd
    rintro _ ⟨⟩
    refine h.dec x _ _ hx hr ?_ hd
    cases a with
    | none => exact h.zero
    | some a => exact ha a rfl

theorem sayx_encList {α : Type} {c : XCodec α} {I : α → Prop} {m : String} {oe : Bool} (h : SayX P Q n c I) :
    ∀ (as : List α) (ks : List Xml), (∀ a ∈ as, I a) → XField.encList m oe c as = some ks → ∀ k ∈ ks, Wrote Q k
  | [], ks, _, he => by cases he; simp
  | a :: as, ks, ha, he => by
    have ih := sayx_encList (m := m) (oe := oe) h as
    simp only [XField.encList] at he
    split at he
    · exact ih ks (fun b hb => ha b (List.mem_cons_of_mem _ hb)) he
    · split at he
      · cases he
      · rename_i o ho
        rw [Option.map_eq_some_iff] at he
        obtain ⟨ls, hl, rfl⟩ := he
        intro k hk
        rcases List.mem_append.1 hk with hk | hk
        · exact sayx_toList (m := m) h (ha a List.mem_cons_self) (by rw [ho]; rfl) k hk
        · exact ih ls (fun b hb => ha b (List.mem_cons_of_mem _ hb)) hl k hk

theorem push_keeps {α : Type} {c : XCodec α} {I : α → Prop} (h : SayX P Q n c I) {x : Xml} {a b : PSlice α}
    (hx : x.depth < n) (hr : Heard P x) (ha : ∀ y ∈ a.elems, I y) (hd : (c.dec x c.zero).map (XField.push a) = some b) :
    ∀ y ∈ b.elems, I y := by
  rw [Option.map_eq_some_iff] at hd
  obtain ⟨b', hd, rfl⟩ := hd
  intro y hy
  simp only [XField.push, PSlice.elems, List.mem_append, List.mem_singleton] at hy
  rcases hy with hy | rfl
  · exact ha y hy
  · exact h.dec x _ _ hx hr h.zero hd

theorem saye_list {α : Type} {c : XCodec α} {I : α → Prop} {m : String} {oe : Bool} (h : SayX P Q n c I) :
    SayE P Q n (.list m oe c) (fun p => ∀ a ∈ p.elems, I a) :=
  ⟨nofun, fun a ks ha he => sayx_encList h _ ks ha he, fun x a b hx hr ha hd => push_keeps h hx hr ha hd⟩

theorem saye_nlist {α : Type} {c : XCodec α} {I : α → Prop} {p m : String} {oe : Bool} (hR : Rules P Q) (h : SayX P Q n c I) :
    SayE P Q n (.nlist p m oe c) (fun p => ∀ a ∈ p.elems, I a) := by
  refine ⟨nofun, fun a ks ha he => ?_, fun x a b hx hr ha hd => ?_⟩
  · have key : ∀ ls, (XField.encList m oe c a.elems).map (fun ks => [Xml.elem p [] ks]) = some ls → ∀ k ∈ ls, Wrote Q k := by
      intro ls hl
      rw [Option.map_eq_some_iff] at hl
      obtain ⟨es, hes, rfl⟩ := hl
      intro k hk
      simp only [List.mem_singleton] at hk
      subst hk
      exact wrote_elem hR (by simp) (sayx_encList h _ _ ha hes)
    cases a with
    | nil => cases he; simp
    | nilSlice => exact key ks he
    | list l => exact key ks he
  · refine decAll_keeps (G := fun k => k.depth < n ∧ Heard P k) (I := fun p => ∀ a ∈ p.elems, I a) (fun y a b hy ha hd => ?_) _ _ _
      (fun k hk => ⟨kid_depth' hx hk, hr.kid hk⟩) ha hd
    simp only [XField.decInner] at hd
    split at hd
    · exact push_keeps h hy.1 hy.2 ha hd
    · cases hd; exact ha

theorem saye_nptr {α : Type} {c : XCodec α} {I : α → Prop} {p m : String} (hR : Rules P Q) (h : SayX P Q n c I) :
    SayE P Q n (.nptr p m c) (fun o => ∀ a ∈ o, I a) := by
  refine ⟨nofun, fun a ks ha he => ?_, fun x a b hx hr ha hd => ?_⟩
  · cases a with
    | none => cases he; simp
    | some a =>
      simp only [XField.nptr, Option.map_eq_some_iff] at he
      obtain ⟨o, ho, rfl⟩ := he
      intro k hk
      simp only [List.mem_singleton] at hk
      subst hk
      exact wrote_elem hR (by simp) (sayx_toList (m := m) h (ha a rfl) (by rw [ho]; rfl))
  · refine decAll_keeps (G := fun k => k.depth < n ∧ Heard P k) (I := fun o => ∀ a ∈ o, I a) (fun y a b hy ha hd => ?_) _ _ _
      (fun k hk => ⟨kid_depth' hx hk, hr.kid hk⟩) ha hd
    split at hd
    · exact (saye_ptr (m := m) h).dec y a b hy.1 hy.2 ha hd
    · cases hd; exact ha

theorem saye_slice {α : Type} {c : XCodec (List α)} {I : List α → Prop} {m : String} (h : SayX P Q n c I) (hz : I []) :
    SayE P Q n (.slice m c) (fun p => I p.elems) := by
  refine ⟨hz, fun a ks ha he => ?_, fun x a b hx hr ha hd => ?_⟩
  · cases a with
    | nil => cases he; simp
    | nilSlice => exact sayx_toList h ha he
    | list l => exact sayx_toList h ha he
  · simp only [XField.slice, Option.map_eq_some_iff] at hd
    obtain ⟨b', hd, rfl⟩ := hd
    exact h.dec x _ _ hx hr ha hd

theorem sayf_nil (hR : Rules P Q) : SayFs P Q n .nil (fun _ => True) :=
  ⟨trivial, by simp [XFields.encAttrs], fun b ks _ h => by cases h; exact ⟨by simp, fun _ => rfl, fun _ => hR.blank⟩,
    fun _ _ _ _ _ _ => trivial, fun _ _ _ _ _ _ _ => trivial, fun _ _ _ _ => trivial⟩

theorem sayf_skip {α β : Type} {z : α} {F : XFields β} {K : β → Prop} (h : SayFs P Q n F K) :
    SayFs P Q n (.skip z F) (fun b => K b.2) := by
  refine ⟨h.zero, fun b hb => h.attrs _ hb, fun b ks hb => h.kids _ ks hb, fun kv b b' hp hb hd => ?_,
    fun x b b' hx hr hb hd => ?_, fun s b hs hb => h.setText s _ hs hb⟩
  · simp only [XFields.setAttr, Option.map_eq_some_iff] at hd
    obtain ⟨b', hd, rfl⟩ := hd
    exact h.setAttr _ _ _ hp hb hd
  · simp only [XFields.setKid, Option.map_eq_some_iff] at hd
    obtain ⟨b', hd, rfl⟩ := hd
    exact h.setKid _ _ _ hx hr hb hd

theorem sayf_attr {α β : Type} {m : String} {oe : Bool} {c : XText α} {I : α → Prop} {F : XFields β} {K : β → Prop}
    (hc : SayT P Q c I) (h : SayFs P Q n F K) : SayFs P Q n (.attr m oe c F) (fun b => I b.1 ∧ K b.2) := by
  refine ⟨⟨hc.zero, h.zero⟩, fun b hb kv hk => ?_, fun b ks hb => h.kids _ ks hb.2, fun kv b b' hp hb hd => ?_,
    fun x b b' hx hr hb hd => ?_, fun s b hs hb => ⟨hb.1, h.setText s _ hs hb.2⟩⟩
  · simp only [XFields.encAttrs] at hk
    split at hk
    · exact h.attrs _ hb.2 kv hk
    · cases hk with
      | head => exact hc.enc _ hb.1
      | tail _ hk => exact h.attrs _ hb.2 kv hk
  · simp only [XFields.setAttr] at hd
    split at hd <;> rw [Option.map_eq_some_iff] at hd <;> obtain ⟨b', hd, rfl⟩ := hd
    · exact ⟨hc.dec _ _ hp hd, hb.2⟩
    · exact ⟨hb.1, h.setAttr _ _ _ hp hb.2 hd⟩
  · simp only [XFields.setKid, Option.map_eq_some_iff] at hd
    obtain ⟨b', hd, rfl⟩ := hd
    exact ⟨hb.1, h.setKid _ _ _ hx hr hb.2 hd⟩

theorem sayf_attrPtr {α β : Type} {m : String} {c : XText α} {I : α → Prop} {F : XFields β} {K : β → Prop}
    (hc : SayT P Q c I) (h : SayFs P Q n F K) : SayFs P Q n (.attrPtr m c F) (fun b => (∀ a ∈ b.1, I a) ∧ K b.2) := by
  refine ⟨⟨nofun, h.zero⟩, fun b hb kv hk => ?_, fun b ks hb => h.kids _ ks hb.2, fun kv b b' hp hb hd => ?_,
    fun x b b' hx hr hb hd => ?_, fun s b hs hb => ⟨hb.1, h.setText s _ hs hb.2⟩⟩
  · simp only [XFields.encAttrs] at hk
    split at hk
    · exact h.attrs _ hb.2 kv hk
    · rename_i a ha
      cases hk with
      | head => exact hc.enc _ (hb.1 a ha)
      | tail _ hk => exact h.attrs _ hb.2 kv hk
  · simp only [XFields.setAttr] at hd
    split at hd <;> rw [Option.map_eq_some_iff] at hd <;> obtain ⟨b', hd, rfl⟩ := hd
    · exact ⟨by rintro _ ⟨⟩; exact hc.dec _ _ hp hd, hb.2⟩
    · exact ⟨hb.1, h.setAttr _ _ _ hp hb.2 hd⟩
  · simp only [XFields.setKid, Option.map_eq_some_iff] at hd
    obtain ⟨b', hd, rfl⟩ := hd
    exact ⟨hb.1, h.setKid _ _ _ hx hr hb.2 hd⟩

theorem sayf_chardata {β : Type} {F : XFields β} {K : β → Prop} (hR : Rules P Q) (h : SayFs P Q n F K) :
    SayFs P Q n (.chardata F) (fun b => Q (sanitize b.1) ∧ K b.2) := by
  refine ⟨⟨hR.zero, h.zero⟩, fun b hb => h.attrs _ hb.2, fun b ks hb he => ?_, fun kv b b' hp hb hd => ?_,
    fun x b b' hx hr hb hd => ?_, fun s b hs hb => ⟨hR.text s hs, hb.2⟩⟩
  · simp only [XFields.encKids, Option.map_eq_some_iff] at he
    obtain ⟨ls, hl, rfl⟩ := he
    have := h.kids _ ls hb.2 hl
    refine ⟨fun k hk => ?_, nofun, fun ht => ?_⟩
    · rcases List.mem_append.1 hk with hk | hk
      · exact heard_textKids k hk
      · exact this.1 k hk
    · simp only [XFields.texts] at ht
      rw [textOf_append, textOf_textKids, this.2.1 (by omega), String.append_empty]
      exact hb.1
  · simp only [XFields.setAttr, Option.map_eq_some_iff] at hd
    obtain ⟨b', hd, rfl⟩ := hd
    exact ⟨hb.1, h.setAttr _ _ _ hp hb.2 hd⟩
  · simp only [XFields.setKid, Option.map_eq_some_iff] at hd
    obtain ⟨b', hd, rfl⟩ := hd
    exact ⟨hb.1, h.setKid _ _ _ hx hr hb.2 hd⟩

theorem sayf_elem {α β : Type} {f : XField α} {I : α → Prop} {F : XFields β} {K : β → Prop}
    (hf : SayE P Q n f I) (h : SayFs P Q n F K) : SayFs P Q n (.elem f F) (fun b => I b.1 ∧ K b.2) := by
  refine ⟨⟨hf.zero, h.zero⟩, fun b hb => h.attrs _ hb.2, fun b ks hb he => ?_, fun kv b b' hp hb hd => ?_,
    fun x b b' hx hr hb hd => ?_, fun s b hs hb => ⟨hb.1, h.setText s _ hs hb.2⟩⟩
  · simp only [XFields.encKids] at he
    split at he
    · cases he
    · rename_i es hes
      rw [Option.map_eq_some_iff] at he
      obtain ⟨ls, hl, rfl⟩ := he
      have h1 := hf.enc _ _ hb.1 hes
      have h2 := h.kids _ ls hb.2 hl
      rw [textOf_append, textOf_wrote h1, String.empty_append]
      refine ⟨fun k hk => ?_, h2.2⟩
      rcases List.mem_append.1 hk with hk | hk
      · exact (h1 k hk).2
      · exact h2.1 k hk
  · simp only [XFields.setAttr, Option.map_eq_some_iff] at hd
    obtain ⟨b', hd, rfl⟩ := hd
    exact ⟨hb.1, h.setAttr _ _ _ hp hb.2 hd⟩
  · simp only [XFields.setKid] at hd
    split at hd <;> rw [Option.map_eq_some_iff] at hd <;> obtain ⟨b', hd, rfl⟩ := hd
    · exact ⟨hf.dec _ _ _ hx hr hb.1 hd, hb.2⟩
    · exact ⟨hb.1, h.setKid _ _ _ hx hr hb.2 hd⟩

theorem decAttrs_keeps {β : Type} {F : XFields β} {K : β → Prop} (h : SayFs P Q n F K) :
    ∀ (as : List (String × String)) (b b' : β), (∀ kv ∈ as, P kv.2) → K b → F.decAttrs as b = some b' → K b'
  | [], b, b', _, hb, e => by cases e; exact hb
  | kv :: as, b, b', hp, hb, e => by
    simp only [XFields.decAttrs] at e
    split at e
    · cases e
    · rename_i c hc
      exact decAttrs_keeps h as c b' (fun y hy => hp y (List.mem_cons_of_mem _ hy))
        (h.setAttr _ _ _ (hp kv List.mem_cons_self) hb hc) e

theorem SayFs.dec {β : Type} {F : XFields β} {K : β → Prop} (h : SayFs P Q n F K) (hR : Rules P Q) {x : Xml} {b b' : β}
    (hx : x.depth ≤ n) (hr : Heard P x) (hb : K b) (hd : F.dec x b = some b') : K b' := by
  simp only [XFields.dec] at hd
  split at hd
  · cases hd
  · rename_i b1 h1
    split at hd
    · cases hd
    · rename_i b2 h2
      cases hd
      refine h.setText _ _ (hr.text hR) ?_
      exact decAll_keeps (G := fun k => k.depth < n ∧ Heard P k) (fun y a b hy => h.setKid y a b hy.1 hy.2) _ _ _
        (fun k hk => ⟨kid_depth hx hk, hr.kid hk⟩) (decAttrs_keeps h _ _ _ (fun _ hk => hr.attr hk) hb h1) h2

theorem SayFs.enc {σ β : Type} {F : XFields β} {K : β → Prop} {toP : σ → β} {ofP : β → σ} (h : SayFs P Q n F K)
    (ht : F.texts ≤ 1) {m : String} {s : σ} {x : Xml} (hs : K (toP s))
    (he : (XCodec.struct F toP ofP).enc m s = some (some x)) : Wrote Q x := by
  simp only [XCodec.struct, Option.map_eq_some_iff, Option.some.injEq] at he
  obtain ⟨ks, hk, rfl⟩ := he
  have := h.kids _ _ hs hk
  exact heard_elem (h.attrs _ hs) this.1 (this.2.2 ht)

theorem sayx_struct' {σ β : Type} {F : XFields β} {K : β → Prop} {toP : σ → β} {ofP : β → σ} (hR : Rules P Q)
    (hp : ∀ b, toP (ofP b) = b) (ht : F.texts ≤ 1) (h : SayFs P Q n F K) :
    SayX P Q (n + 1) (XCodec.struct F toP ofP) (fun s => K (toP s)) := by
  refine ⟨by simpa only [XCodec.struct, hp] using h.zero, fun m a x ha he => h.enc ht ha he, fun x a b hx hr ha hd => ?_⟩
  simp only [XCodec.struct, Option.map_eq_some_iff] at hd
  obtain ⟨b', hd, rfl⟩ := hd
  rw [hp]
  exact h.dec hR (by omega) hr ha hd

theorem SayX.mono {α : Type} {m : Nat} {c : XCodec α} {I : α → Prop} (h : SayX P Q n c I) (hm : m ≤ n) : SayX P Q m c I :=
  ⟨h.zero, h.enc, fun x a b hx => h.dec x a b (by omega)⟩

theorem sayx_struct {σ β : Type} {F : XFields β} {K : β → Prop} {toP : σ → β} {ofP : β → σ} (hR : Rules P Q)
    (hp : ∀ b, toP (ofP b) = b) (ht : F.texts ≤ 1) (h : SayFs P Q n F K) :
    SayX P Q n (XCodec.struct F toP ofP) (fun s => K (toP s)) :=
  (sayx_struct' hR hp ht h).mono (by omega)

theorem sayx_fresh {α : Type} {c : XCodec α} {I : α → Prop} (h : SayX P Q n c I) : SayX P Q n (X.fresh c) I :=
  ⟨h.zero, h.enc, fun x a b hx hr _ hd => h.dec x _ b hx hr h.zero hd⟩

theorem sayx_bomReference (hR : Rules P Q) : SayX P Q n X.bomReference (fun r => Q (sanitize r.val) ∧ True) :=
  have h := sayx_fresh (sayx_struct (n := n) (toP := fun r : BOMReference => (r.val, ())) (ofP := fun p => ⟨p.1⟩) hR
    (fun _ => rfl) (by decide) (sayf_attr (m := "ref") (oe := false) (sayt_string hR) (sayf_nil hR)))
  ⟨h.zero, h.enc, h.dec⟩
theorem sayx_dependencyRef (hR : Rules P Q) : SayX P Q n X.dependencyRef (fun r => Q (sanitize r) ∧ True) :=
  sayx_struct hR (fun _ => rfl) (by decide) (sayf_attr (sayt_string hR) (sayf_nil hR))

theorem sayx_ikev2 {σ β : Type} {F : XFields β} {K : β → Prop} {toP : σ → BOMReference × β} {ofP : BOMReference × β → σ}
    {isRef : β → Bool} (hR : Rules P Q) (hp : ∀ b, toP (ofP b) = b) (ht : F.texts = 0) (h : SayFs P Q n F K) :
    SayX P Q n (X.ikev2 F toP ofP isRef) (fun v => Q (sanitize (toP v).1.val) ∧ K (toP v).2) := by
  refine ⟨?_, fun m v x hv he => ?_, fun x a b hx hr ha hd => ?_⟩
  · simp only [X.ikev2, hp]
    exact ⟨hR.zero, h.zero⟩
  · simp only [X.ikev2] at he
    split at he
    · simp only [Option.some.injEq] at he
      subst he
      exact wrote_text (by simp) hv.1
    · exact (sayf_skip (z := (⟨""⟩ : BOMReference)) h).enc (by simp only [XFields.texts]; omega) hv.2 he
  · simp only [X.ikev2] at hd
    split at hd
    · cases hd
    · rename_i p hpp
      have hk : Q (sanitize (trim p.1)) ∧ K p.2 := by
        constructor
        · have : p.1 = textOf x.kids := by
            simp only [XFields.dec] at hpp
            split at hpp
            · cases hpp
            · split at hpp
              · cases hpp
              · cases hpp; rfl
          rw [this]
          exact hR.trimmed _ (hr.text hR)
        · exact ((sayf_chardata hR h).dec hR (by omega) hr ⟨hR.zero, h.zero⟩ hpp).2
      split at hd
      · cases hd
        rw [hp]
        exact ⟨hk.1, ha.2⟩
      · cases hd
        rw [hp]
        exact ⟨ha.1, hk.2⟩

theorem encEach_wrote {α : Type} {f : α → Option (List Xml)} : ∀ (as : List α) (ks : List Xml),
    (∀ a ∈ as, ∀ ls, f a = some ls → ∀ k ∈ ls, Wrote Q k) → X.encEach f as = some ks → ∀ k ∈ ks, Wrote Q k
  | [], ks, _, he => by cases he; simp
  | a :: as, ks, ha, he => by
    simp only [X.encEach] at he
    split at he
    · cases he
    · rename_i ls hl
      rw [Option.map_eq_some_iff] at he
      obtain ⟨ms, hm, rfl⟩ := he
      intro k hk
      rcases List.mem_append.1 hk with hk | hk
      · exact ha a List.mem_cons_self ls hl k hk
      · exact encEach_wrote as ms (fun b hb => ha b (List.mem_cons_of_mem _ hb)) hm k hk

theorem decEach_keeps {α : Type} {g : Xml → Option (List α)} {I : α → Prop} : ∀ (xs : List Xml) (as : List α),
    (∀ x ∈ xs, ∀ bs, g x = some bs → ∀ b ∈ bs, I b) → X.decEach g xs = some as → ∀ a ∈ as, I a
  | [], as, _, he => by cases he; simp
  | x :: xs, as, hx, he => by
    simp only [X.decEach] at he
    split at he
    · cases he
    · rename_i ls hl
      rw [Option.map_eq_some_iff] at he
      obtain ⟨ms, hm, rfl⟩ := he
      intro k hk
      rcases List.mem_append.1 hk with hk | hk
      · exact hx x List.mem_cons_self ls hl k hk
      · exact decEach_keeps xs ms (fun b hb => hx b (List.mem_cons_of_mem _ hb)) hm k hk

theorem ex_nil (hR : Rules P Q) : ∃ K, SayFs P Q n .nil K := ⟨_, sayf_nil hR⟩
theorem ex_skip {α β : Type} {z : α} {F : XFields β} : (∃ K, SayFs P Q n F K) → ∃ K, SayFs P Q n (.skip z F) K :=
  fun ⟨_, h⟩ => ⟨_, sayf_skip h⟩
theorem ex_attr {α β : Type} {m : String} {oe : Bool} {c : XText α} {I : α → Prop} {F : XFields β} (hc : SayT P Q c I) :
    (∃ K, SayFs P Q n F K) → ∃ K, SayFs P Q n (.attr m oe c F) K := fun ⟨_, h⟩ => ⟨_, sayf_attr hc h⟩
theorem ex_attrPtr {α β : Type} {m : String} {c : XText α} {I : α → Prop} {F : XFields β} (hc : SayT P Q c I) :
    (∃ K, SayFs P Q n F K) → ∃ K, SayFs P Q n (.attrPtr m c F) K := fun ⟨_, h⟩ => ⟨_, sayf_attrPtr hc h⟩
theorem ex_chardata {β : Type} {F : XFields β} (hR : Rules P Q) :
    (∃ K, SayFs P Q n F K) → ∃ K, SayFs P Q n (.chardata F) K := fun ⟨_, h⟩ => ⟨_, sayf_chardata hR h⟩
theorem ex_elem {α β : Type} {f : XField α} {F : XFields β} : (∃ I, SayE P Q n f I) →
    (∃ K, SayFs P Q n F K) → ∃ K, SayFs P Q n (.elem f F) K := fun ⟨_, hf⟩ ⟨_, h⟩ => ⟨_, sayf_elem hf h⟩
theorem ex_plain {α : Type} {c : XCodec α} {m : String} {oe : Bool} : (∃ I, SayX P Q n c I) →
    ∃ I, SayE P Q n (.plain m oe c) I := fun ⟨_, h⟩ => ⟨_, saye_plain h⟩
theorem ex_ptr {α : Type} {c : XCodec α} {m : String} : (∃ I, SayX P Q n c I) →
    ∃ I, SayE P Q n (.ptr m c) I := fun ⟨_, h⟩ => ⟨_, saye_ptr h⟩
theorem ex_list {α : Type} {c : XCodec α} {m : String} {oe : Bool} : (∃ I, SayX P Q n c I) →
    ∃ I, SayE P Q n (.list m oe c) I := fun ⟨_, h⟩ => ⟨_, saye_list h⟩
theorem ex_nlist {α : Type} {c : XCodec α} {p m : String} {oe : Bool} (hR : Rules P Q) : (∃ I, SayX P Q n c I) →
    ∃ I, SayE P Q n (.nlist p m oe c) I := fun ⟨_, h⟩ => ⟨_, saye_nlist hR h⟩
theorem ex_nptr {α : Type} {c : XCodec α} {p m : String} (hR : Rules P Q) : (∃ I, SayX P Q n c I) →
    ∃ I, SayE P Q n (.nptr p m c) I := fun ⟨_, h⟩ => ⟨_, saye_nptr hR h⟩
theorem ex_slice {α : Type} {c : XCodec (List α)} {m : String} (hz : c.zero = []) : (∃ I, SayX P Q n c I) →
    ∃ I, SayE P Q n (.slice m c) I := fun ⟨_, h⟩ => ⟨_, saye_slice h (hz ▸ h.zero)⟩
theorem ex_struct {σ β : Type} {F : XFields β} {toP : σ → β} {ofP : β → σ} (hR : Rules P Q)
    (hp : ∀ b, toP (ofP b) = b) (ht : F.texts ≤ 1) : (∃ K, SayFs P Q n F K) →
    ∃ I, SayX P Q n (XCodec.struct F toP ofP) I := fun ⟨_, h⟩ => ⟨_, sayx_struct hR hp ht h⟩
theorem ex_struct' {σ β : Type} {F : XFields β} {toP : σ → β} {ofP : β → σ} (hR : Rules P Q)
    (hp : ∀ b, toP (ofP b) = b) (ht : F.texts ≤ 1) : (∃ K, SayFs P Q n F K) →
    ∃ I, SayX P Q (n + 1) (XCodec.struct F toP ofP) I := fun ⟨_, h⟩ => ⟨_, sayx_struct' hR hp ht h⟩
theorem ex_ike {σ β : Type} {F : XFields β} {toP : σ → BOMReference × β} {ofP : BOMReference × β → σ}
    {isRef : β → Bool} (hR : Rules P Q) (hp : ∀ b, toP (ofP b) = b) (ht : F.texts = 0) : (∃ K, SayFs P Q n F K) →
    ∃ I, SayX P Q n (X.ikev2 F toP ofP isRef) I := fun ⟨_, h⟩ => ⟨_, sayx_ikev2 hR hp ht h⟩
theorem ex_simple {α : Type} {c : XText α} {I : α → Prop} (hR : Rules P Q) (h : SayT P Q c I) :
    ∃ I, SayX P Q n (XCodec.simple c) I := ⟨_, sayx_simple hR h⟩


theorem xsay_advisory (n : Nat) (hR : Rules P Q) : ∃ I, SayX P Q n X.advisory I :=
  ex_struct hR (fun _ => rfl) (Nat.le_of_ble_eq_true rfl) (
    ex_elem (ex_plain (ex_simple hR (sayt_string hR))) <|
    ex_elem (ex_plain (ex_simple hR (sayt_string hR))) <|
    ex_nil hR)

theorem xsay_affectedVersions (n : Nat) (hR : Rules P Q) : ∃ I, SayX P Q n X.affectedVersions I :=
  ex_struct hR (fun _ => rfl) (Nat.le_of_ble_eq_true rfl) (
    ex_elem (ex_plain (ex_simple hR (sayt_string hR))) <|
    ex_elem (ex_plain (ex_simple hR (sayt_string hR))) <|
    ex_elem (ex_plain (ex_simple hR (sayt_string hR))) <|
    ex_nil hR)

theorem xsay_affects (n : Nat) (hR : Rules P Q) : ∃ I, SayX P Q n X.affects I :=
  ex_struct hR (fun _ => rfl) (Nat.le_of_ble_eq_true rfl) (
    ex_elem (ex_plain (ex_simple hR (sayt_string hR))) <|
    ex_elem (ex_nlist hR (xsay_affectedVersions n hR)) <|
    ex_nil hR)

theorem xsay_attachedText (n : Nat) (hR : Rules P Q) : ∃ I, SayX P Q n X.attachedText I :=
  ex_struct hR (fun _ => rfl) (Nat.le_of_ble_eq_true rfl) (
    ex_chardata hR <|
    ex_attr (sayt_string hR) <|
    ex_attr (sayt_string hR) <|
    ex_nil hR)

theorem xsay_property (n : Nat) (hR : Rules P Q) : ∃ I, SayX P Q n X.property I :=
  ex_struct hR (fun _ => rfl) (Nat.le_of_ble_eq_true rfl) (
    ex_attr (sayt_string hR) <|
    ex_chardata hR <|
    ex_nil hR)

theorem xsay_componentDataContents (n : Nat) (hR : Rules P Q) : ∃ I, SayX P Q n X.componentDataContents I :=
  ex_struct hR (fun _ => rfl) (Nat.le_of_ble_eq_true rfl) (
    ex_elem (ex_ptr (xsay_attachedText n hR)) <|
    ex_elem (ex_plain (ex_simple hR (sayt_string hR))) <|
    ex_elem (ex_list (xsay_property n hR)) <|
    ex_nil hR)

theorem xsay_componentDataGraphic (n : Nat) (hR : Rules P Q) : ∃ I, SayX P Q n X.componentDataGraphic I :=
  ex_struct hR (fun _ => rfl) (Nat.le_of_ble_eq_true rfl) (
    ex_elem (ex_plain (ex_simple hR (sayt_string hR))) <|
    ex_elem (ex_ptr (xsay_attachedText n hR)) <|
    ex_nil hR)

theorem xsay_componentDataGraphics (n : Nat) (hR : Rules P Q) : ∃ I, SayX P Q n X.componentDataGraphics I :=
  ex_struct hR (fun _ => rfl) (Nat.le_of_ble_eq_true rfl) (
    ex_elem (ex_plain (ex_simple hR (sayt_string hR))) <|
    ex_elem (ex_nlist hR (xsay_componentDataGraphic n hR)) <|
    ex_nil hR)

theorem xsay_organizationalContact (n : Nat) (hR : Rules P Q) : ∃ I, SayX P Q n X.organizationalContact I :=
  ex_struct hR (fun _ => rfl) (Nat.le_of_ble_eq_true rfl) (
    ex_attr (sayt_string hR) <|
    ex_elem (ex_plain (ex_simple hR (sayt_string hR))) <|
    ex_elem (ex_plain (ex_simple hR (sayt_string hR))) <|
    ex_elem (ex_plain (ex_simple hR (sayt_string hR))) <|
    ex_nil hR)

theorem xsay_postalAddress (n : Nat) (hR : Rules P Q) : ∃ I, SayX P Q n X.postalAddress I :=
  ex_struct hR (fun _ => rfl) (Nat.le_of_ble_eq_true rfl) (
    ex_attr (sayt_string hR) <|
    ex_elem (ex_plain (ex_simple hR (sayt_string hR))) <|
    ex_elem (ex_plain (ex_simple hR (sayt_string hR))) <|
    ex_elem (ex_plain (ex_simple hR (sayt_string hR))) <|
    ex_elem (ex_plain (ex_simple hR (sayt_string hR))) <|
    ex_elem (ex_plain (ex_simple hR (sayt_string hR))) <|
    ex_elem (ex_plain (ex_simple hR (sayt_string hR))) <|
    ex_nil hR)

theorem xsay_organizationalEntity (n : Nat) (hR : Rules P Q) : ∃ I, SayX P Q n X.organizationalEntity I :=
  ex_struct hR (fun _ => rfl) (Nat.le_of_ble_eq_true rfl) (
    ex_attr (sayt_string hR) <|
    ex_elem (ex_plain (ex_simple hR (sayt_string hR))) <|
    ex_elem (ex_ptr (xsay_postalAddress n hR)) <|
    ex_elem (ex_list (ex_simple hR (sayt_string hR))) <|
    ex_elem (ex_list (xsay_organizationalContact n hR)) <|
    ex_nil hR)

theorem xsay_componentDataGovernanceResponsibleParty (n : Nat) (hR : Rules P Q) : ∃ I, SayX P Q n X.componentDataGovernanceResponsibleParty I :=
  ex_struct hR (fun _ => rfl) (Nat.le_of_ble_eq_true rfl) (
    ex_elem (ex_ptr (xsay_organizationalEntity n hR)) <|
    ex_elem (ex_ptr (xsay_organizationalContact n hR)) <|
    ex_nil hR)

theorem xsay_dataGovernance (n : Nat) (hR : Rules P Q) : ∃ I, SayX P Q n X.dataGovernance I :=
  ex_struct hR (fun _ => rfl) (Nat.le_of_ble_eq_true rfl) (
    ex_elem (ex_nlist hR (xsay_componentDataGovernanceResponsibleParty n hR)) <|
    ex_elem (ex_nlist hR (xsay_componentDataGovernanceResponsibleParty n hR)) <|
    ex_elem (ex_nlist hR (xsay_componentDataGovernanceResponsibleParty n hR)) <|
    ex_nil hR)

theorem xsay_componentDataFields (n : Nat) (hR : Rules P Q) : ∃ K, SayFs P Q n X.componentDataFields K :=
  ex_attr (sayt_string hR) <|
    ex_elem (ex_plain (ex_simple hR (sayt_string hR))) <|
    ex_elem (ex_plain (ex_simple hR (sayt_string hR))) <|
    ex_elem (ex_ptr (xsay_componentDataContents n hR)) <|
    ex_elem (ex_plain (ex_simple hR (sayt_string hR))) <|
    ex_elem (ex_list (ex_simple hR (sayt_string hR))) <|
    ex_elem (ex_ptr (xsay_componentDataGraphics n hR)) <|
    ex_elem (ex_plain (ex_simple hR (sayt_string hR))) <|
    ex_elem (ex_ptr (xsay_dataGovernance n hR)) <|
    ex_nil hR

theorem xsay_componentData (n : Nat) (hR : Rules P Q) : ∃ I, SayX P Q n X.componentData I :=
  ex_struct hR (fun _ => rfl) (Nat.le_of_ble_eq_true rfl) (xsay_componentDataFields n hR)


theorem xsay_hash (n : Nat) (hR : Rules P Q) : ∃ I, SayX P Q n X.hash I :=
  ex_struct hR (fun _ => rfl) (Nat.le_of_ble_eq_true rfl) (
    ex_attr (sayt_string hR) <|
    ex_chardata hR <|
    ex_nil hR)

theorem xsay_relatedCryptographicAsset (n : Nat) (hR : Rules P Q) : ∃ I, SayX P Q n X.relatedCryptographicAsset I :=
  ex_struct hR (fun _ => rfl) (Nat.le_of_ble_eq_true rfl) (
    ex_elem (ex_plain (ex_simple hR (sayt_string hR))) <|
    ex_elem (ex_plain (ex_simple hR (sayt_string hR))) <|
    ex_nil hR)

theorem xsay_certificateState (n : Nat) (hR : Rules P Q) : ∃ I, SayX P Q n X.certificateState I := by
  have hs := fun m oe => saye_plain (m := m) (oe := oe) (sayx_simple (n := n) hR (sayt_string hR))
  have raw : SayFs P Q n X.certificateStateRaw _ :=
    sayf_elem (hs _ _) (sayf_elem (hs _ _) (sayf_elem (hs _ _) (sayf_elem (hs _ _) (sayf_nil hR))))
  have h1 : SayX P Q n X.predefinedCertificateState _ :=
    sayx_struct hR (fun _ => rfl) (Nat.le_of_ble_eq_true rfl) (sayf_elem (hs _ _) (sayf_elem (hs _ _) (sayf_nil hR)))
  have h2 : SayX P Q n X.customCertificateState _ :=
    sayx_struct hR (fun _ => rfl) (Nat.le_of_ble_eq_true rfl) (sayf_elem (hs _ _) (sayf_elem (hs _ _) (sayf_elem (hs _ _) (sayf_nil hR))))
  refine ⟨fun v => (∀ p ∈ v.predefined, Q (sanitize p.state) ∧ Q (sanitize p.reason) ∧ True) ∧
    ∀ p ∈ v.custom, Q (sanitize p.name) ∧ Q (sanitize p.description) ∧ Q (sanitize p.reason) ∧ True,
    ⟨nofun, nofun⟩, fun m v x hv he => ?_, fun x a b hx hr ha hd => ?_⟩
  · simp only [X.certificateState] at he
    split at he
    · cases he
    · rename_i hp _; exact h1.enc m _ x (hv.1 _ hp) he
    · rename_i hp; exact h2.enc m _ x (hv.2 _ hp) he
    · cases he
  · simp only [X.certificateState] at hd
    split at hd
    · cases hd
    · rename_i state name description reason hq
      have hk := raw.dec hR (Nat.le_of_lt hx) hr raw.zero hq
      obtain ⟨k1, k2, k3, k4, _⟩ := hk
      split at hd <;> cases hd
      · exact ⟨by rintro _ ⟨⟩; exact ⟨k1, k4, trivial⟩, ha.2⟩
      · exact ⟨ha.1, by rintro _ ⟨⟩; exact ⟨k2, k3, k4, trivial⟩⟩


theorem xsay_certificateExtension (n : Nat) (hR : Rules P Q) : ∃ I, SayX P Q n X.certificateExtension I := by
  have hs := fun m oe => saye_plain (m := m) (oe := oe) (sayx_simple (n := n) hR (sayt_string hR))
  have raw : SayFs P Q n X.certificateExtensionRaw _ :=
    sayf_elem (hs _ _) (sayf_elem (hs _ _) (sayf_elem (hs _ _) (sayf_elem (hs _ _) (sayf_nil hR))))
  have h1 : SayX P Q n X.commonCertificateExtension _ :=
    sayx_struct hR (fun _ => rfl) (Nat.le_of_ble_eq_true rfl) (sayf_elem (hs _ _) (sayf_elem (hs _ _) (sayf_nil hR)))
  have h2 : SayX P Q n X.customCertificateExtension _ :=
    sayx_struct hR (fun _ => rfl) (Nat.le_of_ble_eq_true rfl) (sayf_elem (hs _ _) (sayf_elem (hs _ _) (sayf_nil hR)))
  refine ⟨fun v => (∀ p ∈ v.common, Q (sanitize p.name) ∧ Q (sanitize p.value) ∧ True) ∧
    ∀ p ∈ v.custom, Q (sanitize p.name) ∧ Q (sanitize p.value) ∧ True,
    ⟨nofun, nofun⟩, fun m v x hv he => ?_, fun x a b hx hr ha hd => ?_⟩
  · simp only [X.certificateExtension] at he
    split at he
    · cases he
    · rename_i hp _; exact h1.enc m _ x (hv.1 _ hp) he
    · rename_i hp; exact h2.enc m _ x (hv.2 _ hp) he
    · cases he
  · simp only [X.certificateExtension] at hd
    split at hd
    · cases hd
    · rename_i hq
      have hk := raw.dec hR (Nat.le_of_lt hx) hr raw.zero hq
      obtain ⟨k1, k2, k3, k4, _⟩ := hk
      split at hd <;> cases hd
      · exact ⟨by rintro _ ⟨⟩; exact ⟨k1, k2, trivial⟩, ha.2⟩
      · exact ⟨ha.1, by rintro _ ⟨⟩; exact ⟨k3, k4, trivial⟩⟩


theorem xsay_certificateProperties (n : Nat) (hR : Rules P Q) : ∃ I, SayX P Q n X.certificateProperties I :=
  ex_struct hR (fun _ => rfl) (Nat.le_of_ble_eq_true rfl) (
    ex_elem (ex_plain (ex_simple hR (sayt_string hR))) <|
    ex_elem (ex_plain (ex_simple hR (sayt_string hR))) <|
    ex_elem (ex_plain (ex_simple hR (sayt_string hR))) <|
    ex_elem (ex_plain (ex_simple hR (sayt_string hR))) <|
    ex_elem (ex_plain (ex_simple hR (sayt_string hR))) <|
    ex_elem (ex_plain ⟨_, sayx_bomReference hR⟩) <|
    ex_elem (ex_plain ⟨_, sayx_bomReference hR⟩) <|
    ex_elem (ex_plain (ex_simple hR (sayt_string hR))) <|
    ex_elem (ex_plain (ex_simple hR (sayt_string hR))) <|
    ex_elem (ex_plain (ex_simple hR (sayt_string hR))) <|
    ex_elem (ex_ptr (xsay_hash n hR)) <|
    ex_elem (ex_list (xsay_certificateState n hR)) <|
    ex_elem (ex_nlist hR (xsay_certificateExtension n hR)) <|
    ex_elem (ex_nlist hR (xsay_relatedCryptographicAsset n hR)) <|
    ex_elem (ex_plain (ex_simple hR (sayt_string hR))) <|
    ex_elem (ex_plain (ex_simple hR (sayt_string hR))) <|
    ex_elem (ex_plain (ex_simple hR (sayt_string hR))) <|
    ex_elem (ex_plain (ex_simple hR (sayt_string hR))) <|
    ex_elem (ex_plain (ex_simple hR (sayt_string hR))) <|
    ex_nil hR)

theorem xsay_cryptoAlgorithmProperties (n : Nat) (hR : Rules P Q) : ∃ I, SayX P Q n X.cryptoAlgorithmProperties I :=
  ex_struct hR (fun _ => rfl) (Nat.le_of_ble_eq_true rfl) (
    ex_elem (ex_plain (ex_simple hR (sayt_string hR))) <|
    ex_elem (ex_plain (ex_simple hR (sayt_string hR))) <|
    ex_elem (ex_plain (ex_simple hR (sayt_string hR))) <|
    ex_elem (ex_plain (ex_simple hR (sayt_string hR))) <|
    ex_elem (ex_plain (ex_simple hR (sayt_string hR))) <|
    ex_elem (ex_plain (ex_simple hR (sayt_string hR))) <|
    ex_elem (ex_plain (ex_simple hR (sayt_string hR))) <|
    ex_elem (ex_list (ex_simple hR (sayt_string hR))) <|
    ex_elem (ex_plain (ex_simple hR (sayt_string hR))) <|
    ex_elem (ex_plain (ex_simple hR (sayt_string hR))) <|
    ex_elem (ex_nlist hR (ex_simple hR (sayt_string hR))) <|
    ex_elem (ex_ptr (ex_simple hR (sayt_int hR))) <|
    ex_elem (ex_ptr (ex_simple hR (sayt_int hR))) <|
    ex_nil hR)

theorem xsay_cipherSuite (n : Nat) (hR : Rules P Q) : ∃ I, SayX P Q n X.cipherSuite I :=
  ex_struct hR (fun _ => rfl) (Nat.le_of_ble_eq_true rfl) (
    ex_elem (ex_plain (ex_simple hR (sayt_string hR))) <|
    ex_elem (ex_list ⟨_, sayx_bomReference hR⟩) <|
    ex_elem (ex_list (ex_simple hR (sayt_string hR))) <|
    ex_elem (ex_nlist hR (ex_simple hR (sayt_string hR))) <|
    ex_elem (ex_nlist hR (ex_simple hR (sayt_string hR))) <|
    ex_nil hR)

theorem xsay_ikev2Auth (n : Nat) (hR : Rules P Q) : ∃ I, SayX P Q n X.ikev2Auth I :=
  ex_ike hR (fun _ => rfl) rfl (
    ex_elem (ex_plain (ex_simple hR (sayt_string hR))) <|
    ex_elem (ex_plain (ex_simple hR (sayt_string hR))) <|
    ex_nil hR)

theorem xsay_ikev2Enc (n : Nat) (hR : Rules P Q) : ∃ I, SayX P Q n X.ikev2Enc I :=
  ex_ike hR (fun _ => rfl) rfl (
    ex_elem (ex_plain (ex_simple hR (sayt_string hR))) <|
    ex_elem (ex_ptr (ex_simple hR (sayt_int hR))) <|
    ex_elem (ex_plain (ex_simple hR (sayt_string hR))) <|
    ex_nil hR)

theorem xsay_ikev2Integ (n : Nat) (hR : Rules P Q) : ∃ I, SayX P Q n X.ikev2Integ I :=
  ex_ike hR (fun _ => rfl) rfl (
    ex_elem (ex_plain (ex_simple hR (sayt_string hR))) <|
    ex_elem (ex_plain (ex_simple hR (sayt_string hR))) <|
    ex_nil hR)

theorem xsay_ikev2Ke (n : Nat) (hR : Rules P Q) : ∃ I, SayX P Q n X.ikev2Ke I :=
  ex_ike hR (fun _ => rfl) rfl (
    ex_elem (ex_ptr (ex_simple hR (sayt_int hR))) <|
    ex_elem (ex_plain (ex_simple hR (sayt_string hR))) <|
    ex_nil hR)

theorem xsay_ikev2Prf (n : Nat) (hR : Rules P Q) : ∃ I, SayX P Q n X.ikev2Prf I :=
  ex_ike hR (fun _ => rfl) rfl (
    ex_elem (ex_plain (ex_simple hR (sayt_string hR))) <|
    ex_elem (ex_plain (ex_simple hR (sayt_string hR))) <|
    ex_nil hR)

theorem xsay_ikev2TransformTypes (n : Nat) (hR : Rules P Q) : ∃ I, SayX P Q n X.ikev2TransformTypes I :=
  ex_struct hR (fun _ => rfl) (Nat.le_of_ble_eq_true rfl) (
    ex_elem (ex_list (xsay_ikev2Enc n hR)) <|
    ex_elem (ex_list (xsay_ikev2Prf n hR)) <|
    ex_elem (ex_list (xsay_ikev2Integ n hR)) <|
    ex_elem (ex_list (xsay_ikev2Ke n hR)) <|
    ex_elem (ex_plain (ex_simple hR (sayt_bool hR))) <|
    ex_elem (ex_list (xsay_ikev2Auth n hR)) <|
    ex_nil hR)

theorem xsay_cryptoProtocolProperties (n : Nat) (hR : Rules P Q) : ∃ I, SayX P Q n X.cryptoProtocolProperties I :=
  ex_struct hR (fun _ => rfl) (Nat.le_of_ble_eq_true rfl) (
    ex_elem (ex_plain (ex_simple hR (sayt_string hR))) <|
    ex_elem (ex_plain (ex_simple hR (sayt_string hR))) <|
    ex_elem (ex_list (xsay_cipherSuite n hR)) <|
    ex_elem (ex_ptr (xsay_ikev2TransformTypes n hR)) <|
    ex_elem (ex_list ⟨_, sayx_bomReference hR⟩) <|
    ex_elem (ex_nlist hR (xsay_relatedCryptographicAsset n hR)) <|
    ex_nil hR)

theorem xsay_securedBy (n : Nat) (hR : Rules P Q) : ∃ I, SayX P Q n X.securedBy I :=
  ex_struct hR (fun _ => rfl) (Nat.le_of_ble_eq_true rfl) (
    ex_elem (ex_plain (ex_simple hR (sayt_string hR))) <|
    ex_elem (ex_plain ⟨_, sayx_bomReference hR⟩) <|
    ex_nil hR)

theorem xsay_relatedCryptoMaterialProperties (n : Nat) (hR : Rules P Q) : ∃ I, SayX P Q n X.relatedCryptoMaterialProperties I :=
  ex_struct hR (fun _ => rfl) (Nat.le_of_ble_eq_true rfl) (
    ex_elem (ex_plain (ex_simple hR (sayt_string hR))) <|
    ex_elem (ex_plain (ex_simple hR (sayt_string hR))) <|
    ex_elem (ex_plain (ex_simple hR (sayt_string hR))) <|
    ex_elem (ex_plain ⟨_, sayx_bomReference hR⟩) <|
    ex_elem (ex_plain (ex_simple hR (sayt_string hR))) <|
    ex_elem (ex_plain (ex_simple hR (sayt_string hR))) <|
    ex_elem (ex_plain (ex_simple hR (sayt_string hR))) <|
    ex_elem (ex_plain (ex_simple hR (sayt_string hR))) <|
    ex_elem (ex_plain (ex_simple hR (sayt_string hR))) <|
    ex_elem (ex_ptr (ex_simple hR (sayt_int hR))) <|
    ex_elem (ex_plain (ex_simple hR (sayt_string hR))) <|
    ex_elem (ex_ptr (xsay_securedBy n hR)) <|
    ex_elem (ex_ptr (xsay_hash n hR)) <|
    ex_elem (ex_nlist hR (xsay_relatedCryptographicAsset n hR)) <|
    ex_nil hR)

theorem xsay_cryptoProperties (n : Nat) (hR : Rules P Q) : ∃ I, SayX P Q n X.cryptoProperties I :=
  ex_struct hR (fun _ => rfl) (Nat.le_of_ble_eq_true rfl) (
    ex_elem (ex_plain (ex_simple hR (sayt_string hR))) <|
    ex_elem (ex_ptr (xsay_cryptoAlgorithmProperties n hR)) <|
    ex_elem (ex_ptr (xsay_certificateProperties n hR)) <|
    ex_elem (ex_ptr (xsay_relatedCryptoMaterialProperties n hR)) <|
    ex_elem (ex_ptr (xsay_cryptoProtocolProperties n hR)) <|
    ex_elem (ex_plain (ex_simple hR (sayt_string hR))) <|
    ex_nil hR)

theorem xsay_callstackFrame (n : Nat) (hR : Rules P Q) : ∃ I, SayX P Q n X.callstackFrame I :=
  ex_struct hR (fun _ => rfl) (Nat.le_of_ble_eq_true rfl) (
    ex_elem (ex_plain (ex_simple hR (sayt_string hR))) <|
    ex_elem (ex_plain (ex_simple hR (sayt_string hR))) <|
    ex_elem (ex_plain (ex_simple hR (sayt_string hR))) <|
    ex_elem (ex_nlist hR (ex_simple hR (sayt_string hR))) <|
    ex_elem (ex_ptr (ex_simple hR (sayt_int hR))) <|
    ex_elem (ex_ptr (ex_simple hR (sayt_int hR))) <|
    ex_elem (ex_plain (ex_simple hR (sayt_string hR))) <|
    ex_nil hR)

theorem xsay_callstack (n : Nat) (hR : Rules P Q) : ∃ I, SayX P Q n X.callstack I :=
  ex_struct hR (fun _ => rfl) (Nat.le_of_ble_eq_true rfl) (
    ex_elem (ex_nlist hR (xsay_callstackFrame n hR)) <|
    ex_nil hR)

theorem xsay_copyright (n : Nat) (hR : Rules P Q) : ∃ I, SayX P Q n X.copyright I := by
  have hs := sayx_simple (n := n) hR (sayt_string hR)
  refine ⟨fun c => Q (sanitize c.text), hR.zero, fun m v x hv he => hs.enc m _ x hv he, fun x a b hx hr ha hd => ?_⟩
  simp only [X.copyright, Option.map_eq_some_iff] at hd
  obtain ⟨t, hd, rfl⟩ := hd
  exact hs.dec x _ t hx hr hR.zero hd


theorem xsay_evidenceIdentityMethod (n : Nat) (hR : Rules P Q) : ∃ I, SayX P Q n X.evidenceIdentityMethod I :=
  ex_struct hR (fun _ => rfl) (Nat.le_of_ble_eq_true rfl) (
    ex_elem (ex_plain (ex_simple hR (sayt_string hR))) <|
    ex_elem (ex_ptr (ex_simple hR (sayt_f32 hR))) <|
    ex_elem (ex_plain (ex_simple hR (sayt_string hR))) <|
    ex_nil hR)

theorem xsay_evidenceIdentity (n : Nat) (hR : Rules P Q) : ∃ I, SayX P Q n X.evidenceIdentity I :=
  ex_struct hR (fun _ => rfl) (Nat.le_of_ble_eq_true rfl) (
    ex_elem (ex_plain (ex_simple hR (sayt_string hR))) <|
    ex_elem (ex_ptr (ex_simple hR (sayt_f32 hR))) <|
    ex_elem (ex_plain (ex_simple hR (sayt_string hR))) <|
    ex_elem (ex_nlist hR (xsay_evidenceIdentityMethod n hR)) <|
    ex_elem (ex_nlist hR ⟨_, sayx_bomReference hR⟩) <|
    ex_nil hR)

theorem xsay_evidenceOccurrence (n : Nat) (hR : Rules P Q) : ∃ I, SayX P Q n X.evidenceOccurrence I :=
  ex_struct hR (fun _ => rfl) (Nat.le_of_ble_eq_true rfl) (
    ex_attr (sayt_string hR) <|
    ex_elem (ex_plain (ex_simple hR (sayt_string hR))) <|
    ex_attrPtr (sayt_int hR) <|
    ex_attrPtr (sayt_int hR) <|
    ex_attr (sayt_string hR) <|
    ex_attr (sayt_string hR) <|
    ex_nil hR)

theorem xsay_organizationalEntityOrContact (n : Nat) (hR : Rules P Q) : ∃ I, SayX P Q n X.organizationalEntityOrContact I :=
  ex_struct hR (fun _ => rfl) (Nat.le_of_ble_eq_true rfl) (
    ex_elem (ex_ptr (xsay_organizationalEntity n hR)) <|
    ex_elem (ex_ptr (xsay_organizationalContact n hR)) <|
    ex_nil hR)

theorem xsay_licensing (n : Nat) (hR : Rules P Q) : ∃ I, SayX P Q n X.licensing I :=
  ex_struct hR (fun _ => rfl) (Nat.le_of_ble_eq_true rfl) (
    ex_elem (ex_nlist hR (ex_simple hR (sayt_string hR))) <|
    ex_elem (ex_ptr (xsay_organizationalEntityOrContact n hR)) <|
    ex_elem (ex_ptr (xsay_organizationalEntityOrContact n hR)) <|
    ex_elem (ex_ptr (xsay_organizationalEntityOrContact n hR)) <|
    ex_elem (ex_plain (ex_simple hR (sayt_string hR))) <|
    ex_elem (ex_nlist hR (ex_simple hR (sayt_string hR))) <|
    ex_elem (ex_plain (ex_simple hR (sayt_string hR))) <|
    ex_elem (ex_plain (ex_simple hR (sayt_string hR))) <|
    ex_nil hR)

theorem xsay_license (n : Nat) (hR : Rules P Q) : ∃ I, SayX P Q n X.license I := by
  have h : ∃ I, SayX P Q n X.licenseAlias I := ex_struct hR (fun _ => rfl) (Nat.le_of_ble_eq_true rfl) (
    ex_attr (sayt_string hR) <|
    ex_elem (ex_plain (ex_simple hR (sayt_string hR))) <|
    ex_elem (ex_plain (ex_simple hR (sayt_string hR))) <|
    ex_attr (sayt_string hR) <|
    ex_elem (ex_ptr (xsay_attachedText n hR)) <|
    ex_elem (ex_plain (ex_simple hR (sayt_string hR))) <|
    ex_elem (ex_ptr (xsay_licensing n hR)) <|
    ex_elem (ex_nlist hR (xsay_property n hR)) <|
    ex_nil hR)
  obtain ⟨I, h⟩ := h
  refine ⟨I, h.zero, fun m v x hv he => ?_, h.dec⟩
  simp only [X.license] at he
  split at he
  · cases he
  · split at he
    · cases he
    · exact h.enc m v x hv he


theorem xsay_licenses (n : Nat) (hR : Rules P Q) : ∃ I, SayX P Q n X.licenses I := by
  obtain ⟨L, hL⟩ := xsay_license n hR
  obtain ⟨A, hA⟩ := xsay_attachedText n hR
  have hs := sayt_string hR
  have hD : SayX P Q n X.licenseExpressionDetail _ :=
    sayx_struct hR (fun _ => rfl) (Nat.le_of_ble_eq_true rfl)
      (sayf_attr hs (sayf_elem (saye_ptr hA) (sayf_elem (saye_plain (sayx_simple hR hs)) (sayf_nil hR))))
  let A2 : LicenseExpressionDetail → Prop := fun d =>
    Q (sanitize d.licenseIdentifier) ∧ (∀ t ∈ d.text, A t) ∧ Q (sanitize d.url) ∧ True
  have h1 : SayFs P Q n X.licenseExpressionFields
      (fun p => Q (sanitize p.1) ∧ Q (sanitize p.2.1) ∧ Q (sanitize p.2.2.1) ∧ True) :=
    sayf_chardata hR (sayf_attr hs (sayf_attr hs (sayf_nil hR)))
  have h2 : SayFs P Q n X.licenseExpressionDetailedFields
      (fun p => Q (sanitize p.1) ∧ Q (sanitize p.2.1) ∧ Q (sanitize p.2.2.1) ∧ (∀ d ∈ p.2.2.2.1.elems, A2 d) ∧ True) :=
    sayf_attr hs (sayf_attr hs (sayf_attr hs (sayf_elem (saye_list hD) (sayf_nil hR))))
  have s1 := sayx_struct (toP := id) (ofP := id) hR (fun _ => rfl) (Nat.le_of_ble_eq_true rfl) h1
  have s2 := sayx_struct (toP := id) (ofP := id) hR (fun _ => rfl) (Nat.le_of_ble_eq_true rfl) h2
  refine ⟨fun ls => ∀ c ∈ ls, (∀ l ∈ c.license, L l) ∧ Q (sanitize c.expression) ∧
    Q (sanitize (c.acknowledgement.getD "")) ∧ Q (sanitize c.bomRef) ∧
      ∀ d ∈ c.expressionDetails.elems, A2 d,
    none_in, fun m v x hv he => ?_, fun x a b hx hr ha hd => ?_⟩
  · have key : ∀ y, (X.encEach X.licenseChoiceEnc v).map (fun ks => some (Xml.elem m [] ks)) = some (some y) → Wrote Q y := by
      intro y hy
      simp only [Option.map_eq_some_iff, Option.some.injEq] at hy
      obtain ⟨ks, hk, rfl⟩ := hy
      refine wrote_elem hR (by simp) (encEach_wrote _ _ (fun c hc ls hl => ?_) hk)
      obtain ⟨c1, c2, c3, c4, c5⟩ := hv c hc
      simp only [X.licenseChoiceEnc] at hl
      split at hl
      · rename_i l hl'
        split at hl
        · cases hl
        · exact sayx_toList hL (c1 l hl') hl
      · split at hl
        · split at hl
          · exact sayx_toList s1 (a := (c.expression, c.acknowledgement.getD "", c.bomRef, ())) ⟨c2, c3, c4, trivial⟩ hl
          · exact sayx_toList s2 (a := (c.expression, c.acknowledgement.getD "", c.bomRef, c.expressionDetails, ()))
              ⟨c2, c3, c4, c5, trivial⟩ hl
        · cases hl; simp
    cases v with
    | nil => cases he
    | cons c cs => exact key x he
  · refine decEach_keeps _ _ (fun k hk bs hb => ?_) hd
    have hkd := kid_depth' hx hk
    have hkr := hr.kid hk
    cases k with
    | text s => cases hb; simp
    | elem name as ks =>
      simp only [X.licenseChoiceDec] at hb
      have ack : ∀ s, Q (sanitize s) → Q (sanitize ((if s ≠ "" then some s else none).getD "")) := by
        intro s h
        split
        · exact h
        · exact hR.zero
      split at hb
      · rw [Option.map_eq_some_iff] at hb
        obtain ⟨p, hp, rfl⟩ := hb
        have hk := h1.dec hR (Nat.le_of_lt hkd) hkr h1.zero hp
        intro c hc
        simp only [List.mem_singleton] at hc
        subst hc
        exact ⟨not_one, hk.1, ack _ hk.2.1, hk.2.2.1, none_in⟩
      · split at hb
        · rw [Option.map_eq_some_iff] at hb
          obtain ⟨p, hp, rfl⟩ := hb
          have hk := h2.dec hR (Nat.le_of_lt hkd) hkr h2.zero hp
          intro c hc
          simp only [List.mem_singleton] at hc
          subst hc
          exact ⟨not_one, hk.1, ack _ hk.2.1, hk.2.2.1, hk.2.2.2.1⟩
        · split at hb
          · rw [Option.map_eq_some_iff] at hb
            obtain ⟨p, hp, rfl⟩ := hb
            have hk := hL.dec _ _ _ hkd hkr hL.zero hp
            intro c hc
            simp only [List.mem_singleton] at hc
            subst hc
            exact ⟨by rintro _ ⟨⟩; exact hk, hR.zero, hR.zero, hR.zero, none_in⟩
          · cases hb


theorem xsay_evidence (n : Nat) (hR : Rules P Q) : ∃ I, SayX P Q n X.evidence I := by
  obtain ⟨I, hI⟩ := xsay_evidenceIdentity n hR
  obtain ⟨O, hO⟩ := xsay_evidenceOccurrence n hR
  obtain ⟨C, hC⟩ := xsay_callstack n hR
  obtain ⟨L, hL⟩ := xsay_licenses n hR
  obtain ⟨T, hT⟩ := xsay_copyright n hR
  have h1 : SayFs P Q n X.evidenceFields _ :=
    sayf_elem (saye_list hI) (sayf_elem (saye_nlist hR hO) (sayf_elem (saye_ptr hC)
      (sayf_elem (saye_slice hL hL.zero) (sayf_elem (saye_nlist hR hT) (sayf_nil hR)))))
  have h2 : SayFs P Q n X.evidenceRaw _ := sayf_elem (saye_list hO) (sayf_elem (saye_list hT) (sayf_nil hR))
  let E : Evidence → Prop := fun ev => (∀ i ∈ (X.evidenceIdentities ev).elems, I i) ∧ (∀ a ∈ ev.occurrences.elems, O a) ∧
    (∀ c ∈ ev.callstack, C c) ∧ L ev.licenses.elems ∧ (∀ a ∈ ev.copyright.elems, T a) ∧ True
  have hz : E {} := ⟨none_in, none_in, nofun, hL.zero, none_in, trivial⟩
  refine ⟨E, hz, fun m v x hv he => ?_, fun x a b hx hr ha hd => ?_⟩
  · simp only [X.evidence] at he
    split at he
    · cases he
    · exact h1.enc (Nat.le_of_ble_eq_true rfl) hv he
  · simp only [X.evidence, Option.map_eq_some_iff] at hd
    obtain ⟨st, hd, rfl⟩ := hd
    have hst := decAll_keeps (G := fun k => k.depth < n ∧ Heard P k)
      (I := fun st : List EvidenceIdentity × Evidence => (∀ i ∈ st.1, I i) ∧ E st.2) (fun y a b hy ha hd => ?_) _ _ _
      (fun k hk => ⟨kid_depth' hx hk, hr.kid hk⟩) ⟨none_in, hz⟩ hd
    · split
      · exact ⟨fun i hi => hst.1 i hi, hst.2.2⟩
      · exact hst.2
    · cases y with
      | text s => cases hd; exact ha
      | elem name as ks =>
        obtain ⟨a1, a2, a3, a4, a5, a6, _⟩ := ha
        simp only [X.evidenceStep] at hd
        split at hd
        · rw [Option.map_eq_some_iff] at hd
          obtain ⟨p, hp, rfl⟩ := hd
          refine ⟨fun i hi => ?_, a2, a3, a4, a5, a6, trivial⟩
          rcases List.mem_append.1 hi with hi | hi
          · exact a1 i hi
          · simp only [List.mem_singleton] at hi
            subst hi
            exact hI.dec _ _ _ hy.1 hy.2 hI.zero hp
        · split at hd
          · rw [Option.map_eq_some_iff] at hd
            obtain ⟨p, hp, rfl⟩ := hd
            have hk := h2.dec hR (Nat.le_of_lt hy.1) hy.2 h2.zero hp
            split
            · exact ⟨a1, a2, hk.1, a4, a5, a6, trivial⟩
            · exact ⟨a1, a2, a3, a4, a5, a6, trivial⟩
          · split at hd
            · rw [Option.map_eq_some_iff] at hd
              obtain ⟨p, hp, rfl⟩ := hd
              have hk := hC.dec _ _ _ hy.1 hy.2 hC.zero hp
              split
              · exact ⟨a1, a2, a3, by rintro _ ⟨⟩; exact hk, a5, a6, trivial⟩
              · exact ⟨a1, a2, a3, a4, a5, a6, trivial⟩
            · split at hd
              · rw [Option.map_eq_some_iff] at hd
                obtain ⟨p, hp, rfl⟩ := hd
                have hk := hL.dec _ _ _ hy.1 hy.2 hL.zero hp
                split
                · exact ⟨a1, a2, a3, a4, hk, a6, trivial⟩
                · exact ⟨a1, a2, a3, a4, a5, a6, trivial⟩
              · split at hd
                · rw [Option.map_eq_some_iff] at hd
                  obtain ⟨p, hp, rfl⟩ := hd
                  have hk := h2.dec hR (Nat.le_of_lt hy.1) hy.2 h2.zero hp
                  split
                  · exact ⟨a1, a2, a3, a4, a5, hk.2.1, trivial⟩
                  · exact ⟨a1, a2, a3, a4, a5, a6, trivial⟩
                · cases hd


theorem xsay_externalReference (n : Nat) (hR : Rules P Q) : ∃ I, SayX P Q n X.externalReference I :=
  ex_struct hR (fun _ => rfl) (Nat.le_of_ble_eq_true rfl) (
    ex_elem (ex_plain (ex_simple hR (sayt_string hR))) <|
    ex_elem (ex_plain (ex_simple hR (sayt_string hR))) <|
    ex_elem (ex_nlist hR (xsay_hash n hR)) <|
    ex_attr (sayt_string hR) <|
    ex_elem (ex_nlist hR (xsay_property n hR)) <|
    ex_nil hR)

theorem xsay_mlModelCO2Measure (n : Nat) (hR : Rules P Q) : ∃ I, SayX P Q n X.mlModelCO2Measure I :=
  ex_struct hR (fun _ => rfl) (Nat.le_of_ble_eq_true rfl) (
    ex_elem (ex_plain (ex_simple hR (sayt_f32 hR))) <|
    ex_elem (ex_plain (ex_simple hR (sayt_string hR))) <|
    ex_nil hR)

theorem xsay_mlModelEnergyMeasure (n : Nat) (hR : Rules P Q) : ∃ I, SayX P Q n X.mlModelEnergyMeasure I :=
  ex_struct hR (fun _ => rfl) (Nat.le_of_ble_eq_true rfl) (
    ex_elem (ex_plain (ex_simple hR (sayt_f32 hR))) <|
    ex_elem (ex_plain (ex_simple hR (sayt_string hR))) <|
    ex_nil hR)

theorem xsay_mlModelEnergyProvider (n : Nat) (hR : Rules P Q) : ∃ I, SayX P Q n X.mlModelEnergyProvider I :=
  ex_struct hR (fun _ => rfl) (Nat.le_of_ble_eq_true rfl) (
    ex_attr (sayt_string hR) <|
    ex_elem (ex_plain (ex_simple hR (sayt_string hR))) <|
    ex_elem (ex_ptr (xsay_organizationalEntity n hR)) <|
    ex_elem (ex_plain (ex_simple hR (sayt_string hR))) <|
    ex_elem (ex_ptr (xsay_mlModelEnergyMeasure n hR)) <|
    ex_elem (ex_nlist hR (xsay_externalReference n hR)) <|
    ex_nil hR)

theorem xsay_mlModelEnergyConsumption (n : Nat) (hR : Rules P Q) : ∃ I, SayX P Q n X.mlModelEnergyConsumption I :=
  ex_struct hR (fun _ => rfl) (Nat.le_of_ble_eq_true rfl) (
    ex_elem (ex_plain (ex_simple hR (sayt_string hR))) <|
    ex_elem (ex_list (xsay_mlModelEnergyProvider n hR)) <|
    ex_elem (ex_plain (xsay_mlModelEnergyMeasure n hR)) <|
    ex_elem (ex_ptr (xsay_mlModelCO2Measure n hR)) <|
    ex_elem (ex_ptr (xsay_mlModelCO2Measure n hR)) <|
    ex_elem (ex_nlist hR (xsay_property n hR)) <|
    ex_nil hR)

theorem xsay_mlModelCardEnvironmentalConsiderations (n : Nat) (hR : Rules P Q) : ∃ I, SayX P Q n X.mlModelCardEnvironmentalConsiderations I :=
  ex_struct hR (fun _ => rfl) (Nat.le_of_ble_eq_true rfl) (
    ex_elem (ex_nlist hR (xsay_mlModelEnergyConsumption n hR)) <|
    ex_elem (ex_nlist hR (xsay_property n hR)) <|
    ex_nil hR)

theorem xsay_mlModelCardEthicalConsideration (n : Nat) (hR : Rules P Q) : ∃ I, SayX P Q n X.mlModelCardEthicalConsideration I :=
  ex_struct hR (fun _ => rfl) (Nat.le_of_ble_eq_true rfl) (
    ex_elem (ex_plain (ex_simple hR (sayt_string hR))) <|
    ex_elem (ex_plain (ex_simple hR (sayt_string hR))) <|
    ex_nil hR)

theorem xsay_mlModelCardFairnessAssessment (n : Nat) (hR : Rules P Q) : ∃ I, SayX P Q n X.mlModelCardFairnessAssessment I :=
  ex_struct hR (fun _ => rfl) (Nat.le_of_ble_eq_true rfl) (
    ex_elem (ex_plain (ex_simple hR (sayt_string hR))) <|
    ex_elem (ex_plain (ex_simple hR (sayt_string hR))) <|
    ex_elem (ex_plain (ex_simple hR (sayt_string hR))) <|
    ex_elem (ex_plain (ex_simple hR (sayt_string hR))) <|
    ex_nil hR)

theorem xsay_mlModelCardConsiderations (n : Nat) (hR : Rules P Q) : ∃ I, SayX P Q n X.mlModelCardConsiderations I :=
  ex_struct hR (fun _ => rfl) (Nat.le_of_ble_eq_true rfl) (
    ex_elem (ex_nlist hR (ex_simple hR (sayt_string hR))) <|
    ex_elem (ex_nlist hR (ex_simple hR (sayt_string hR))) <|
    ex_elem (ex_nlist hR (ex_simple hR (sayt_string hR))) <|
    ex_elem (ex_nlist hR (ex_simple hR (sayt_string hR))) <|
    ex_elem (ex_nlist hR (xsay_mlModelCardEthicalConsideration n hR)) <|
    ex_elem (ex_ptr (xsay_mlModelCardEnvironmentalConsiderations n hR)) <|
    ex_elem (ex_nlist hR (xsay_mlModelCardFairnessAssessment n hR)) <|
    ex_nil hR)

theorem xsay_mlDatasetChoice (n : Nat) (hR : Rules P Q) : ∃ I, SayX P Q n X.mlDatasetChoice I := by
  obtain ⟨K, hK⟩ := xsay_componentDataFields n hR
  have hs := fun m oe => saye_plain (m := m) (oe := oe) (sayx_simple (n := n) hR (sayt_string hR))
  have h1 : SayX P Q n X.mlDatasetChoiceRef _ :=
    sayx_struct hR (fun _ => rfl) (Nat.le_of_ble_eq_true rfl) (sayf_elem (hs _ _) (sayf_nil hR))
  have h2 : SayX P Q n X.componentData _ := sayx_struct hR (fun _ => rfl) (Nat.le_of_ble_eq_true rfl) hK
  have h3 : SayFs P Q n X.mlDatasetChoiceFields _ := sayf_elem (hs _ _) hK
  refine ⟨fun v => Q (sanitize v.ref) ∧ ∀ d ∈ v.componentData, K d.toP, ⟨hR.zero, nofun⟩, fun m v x hv he => ?_,
    fun x a b hx hr ha hd => ?_⟩
  · simp only [X.mlDatasetChoice] at he
    split at he
    · exact h1.enc m _ x ⟨hv.1, trivial⟩ he
    · split at he
      · rename_i d hd; exact h2.enc m _ x (hv.2 d hd) he
      · cases he
  · simp only [X.mlDatasetChoice] at hd
    split at hd
    · cases hd
    · rename_i p hp
      have hk := h3.dec hR (Nat.le_of_lt hx) hr h3.zero hp
      split at hd
      · cases hd; exact ⟨hk.1, ha.2⟩
      · split at hd
        · cases hd; exact ⟨ha.1, by rintro _ ⟨⟩; exact hk.2⟩
        · cases hd; exact ha


theorem xsay_mlInputOutputParameters (n : Nat) (hR : Rules P Q) : ∃ I, SayX P Q n X.mlInputOutputParameters I :=
  ex_struct hR (fun _ => rfl) (Nat.le_of_ble_eq_true rfl) (
    ex_elem (ex_plain (ex_simple hR (sayt_string hR))) <|
    ex_nil hR)

theorem xsay_mlModelParametersApproach (n : Nat) (hR : Rules P Q) : ∃ I, SayX P Q n X.mlModelParametersApproach I :=
  ex_struct hR (fun _ => rfl) (Nat.le_of_ble_eq_true rfl) (
    ex_elem (ex_plain (ex_simple hR (sayt_string hR))) <|
    ex_nil hR)

theorem xsay_mlModelParameters (n : Nat) (hR : Rules P Q) : ∃ I, SayX P Q n X.mlModelParameters I :=
  ex_struct hR (fun _ => rfl) (Nat.le_of_ble_eq_true rfl) (
    ex_elem (ex_ptr (xsay_mlModelParametersApproach n hR)) <|
    ex_elem (ex_plain (ex_simple hR (sayt_string hR))) <|
    ex_elem (ex_plain (ex_simple hR (sayt_string hR))) <|
    ex_elem (ex_plain (ex_simple hR (sayt_string hR))) <|
    ex_elem (ex_nlist hR (xsay_mlDatasetChoice n hR)) <|
    ex_elem (ex_nlist hR (xsay_mlInputOutputParameters n hR)) <|
    ex_elem (ex_nlist hR (xsay_mlInputOutputParameters n hR)) <|
    ex_nil hR)

theorem xsay_mlPerformanceMetricConfidenceInterval (n : Nat) (hR : Rules P Q) : ∃ I, SayX P Q n X.mlPerformanceMetricConfidenceInterval I :=
  ex_struct hR (fun _ => rfl) (Nat.le_of_ble_eq_true rfl) (
    ex_elem (ex_plain (ex_simple hR (sayt_string hR))) <|
    ex_elem (ex_plain (ex_simple hR (sayt_string hR))) <|
    ex_nil hR)

theorem xsay_mlPerformanceMetric (n : Nat) (hR : Rules P Q) : ∃ I, SayX P Q n X.mlPerformanceMetric I :=
  ex_struct hR (fun _ => rfl) (Nat.le_of_ble_eq_true rfl) (
    ex_elem (ex_plain (ex_simple hR (sayt_string hR))) <|
    ex_elem (ex_plain (ex_simple hR (sayt_string hR))) <|
    ex_elem (ex_plain (ex_simple hR (sayt_string hR))) <|
    ex_elem (ex_ptr (xsay_mlPerformanceMetricConfidenceInterval n hR)) <|
    ex_nil hR)

theorem xsay_mlQuantitativeAnalysis (n : Nat) (hR : Rules P Q) : ∃ I, SayX P Q n X.mlQuantitativeAnalysis I :=
  ex_struct hR (fun _ => rfl) (Nat.le_of_ble_eq_true rfl) (
    ex_elem (ex_nlist hR (xsay_mlPerformanceMetric n hR)) <|
    ex_elem (ex_ptr (xsay_componentDataGraphics n hR)) <|
    ex_nil hR)

theorem xsay_mlModelCard (n : Nat) (hR : Rules P Q) : ∃ I, SayX P Q n X.mlModelCard I :=
  ex_struct hR (fun _ => rfl) (Nat.le_of_ble_eq_true rfl) (
    ex_attr (sayt_string hR) <|
    ex_elem (ex_ptr (xsay_mlModelParameters n hR)) <|
    ex_elem (ex_ptr (xsay_mlQuantitativeAnalysis n hR)) <|
    ex_elem (ex_ptr (xsay_mlModelCardConsiderations n hR)) <|
    ex_nil hR)

theorem xsay_identifiableAction (n : Nat) (hR : Rules P Q) : ∃ I, SayX P Q n X.identifiableAction I :=
  ex_struct hR (fun _ => rfl) (Nat.le_of_ble_eq_true rfl) (
    ex_elem (ex_plain (ex_simple hR (sayt_string hR))) <|
    ex_elem (ex_plain (ex_simple hR (sayt_string hR))) <|
    ex_elem (ex_plain (ex_simple hR (sayt_string hR))) <|
    ex_nil hR)

theorem xsay_commit (n : Nat) (hR : Rules P Q) : ∃ I, SayX P Q n X.commit I :=
  ex_struct hR (fun _ => rfl) (Nat.le_of_ble_eq_true rfl) (
    ex_elem (ex_plain (ex_simple hR (sayt_string hR))) <|
    ex_elem (ex_plain (ex_simple hR (sayt_string hR))) <|
    ex_elem (ex_ptr (xsay_identifiableAction n hR)) <|
    ex_elem (ex_ptr (xsay_identifiableAction n hR)) <|
    ex_elem (ex_plain (ex_simple hR (sayt_string hR))) <|
    ex_nil hR)

theorem xsay_diff (n : Nat) (hR : Rules P Q) : ∃ I, SayX P Q n X.diff I :=
  ex_struct hR (fun _ => rfl) (Nat.le_of_ble_eq_true rfl) (
    ex_elem (ex_ptr (xsay_attachedText n hR)) <|
    ex_elem (ex_plain (ex_simple hR (sayt_string hR))) <|
    ex_nil hR)

theorem xsay_source (n : Nat) (hR : Rules P Q) : ∃ I, SayX P Q n X.source I :=
  ex_struct hR (fun _ => rfl) (Nat.le_of_ble_eq_true rfl) (
    ex_elem (ex_plain (ex_simple hR (sayt_string hR))) <|
    ex_elem (ex_plain (ex_simple hR (sayt_string hR))) <|
    ex_nil hR)

theorem xsay_issue (n : Nat) (hR : Rules P Q) : ∃ I, SayX P Q n X.issue I :=
  ex_struct hR (fun _ => rfl) (Nat.le_of_ble_eq_true rfl) (
    ex_elem (ex_plain (ex_simple hR (sayt_string hR))) <|
    ex_elem (ex_plain (ex_simple hR (sayt_string hR))) <|
    ex_elem (ex_plain (ex_simple hR (sayt_string hR))) <|
    ex_elem (ex_ptr (xsay_source n hR)) <|
    ex_elem (ex_nlist hR (ex_simple hR (sayt_string hR))) <|
    ex_attr (sayt_string hR) <|
    ex_nil hR)

theorem xsay_patch (n : Nat) (hR : Rules P Q) : ∃ I, SayX P Q n X.patch I :=
  ex_struct hR (fun _ => rfl) (Nat.le_of_ble_eq_true rfl) (
    ex_elem (ex_ptr (xsay_diff n hR)) <|
    ex_elem (ex_nlist hR (xsay_issue n hR)) <|
    ex_attr (sayt_string hR) <|
    ex_nil hR)

theorem xsay_pedigreeWith (C : XCodec Component) (n : Nat) (hR : Rules P Q) (hC : ∃ I, SayX P Q n C I) :
    ∃ I, SayX P Q n (X.pedigree C) I :=
  ex_struct hR (fun _ => rfl) (Nat.le_of_ble_eq_true rfl) (
    ex_elem (ex_nlist hR hC) <|
    ex_elem (ex_nlist hR hC) <|
    ex_elem (ex_nlist hR hC) <|
    ex_elem (ex_nlist hR (xsay_commit n hR)) <|
    ex_elem (ex_nlist hR (xsay_patch n hR)) <|
    ex_elem (ex_plain (ex_simple hR (sayt_string hR))) <|
    ex_nil hR)


theorem xsay_note (n : Nat) (hR : Rules P Q) : ∃ I, SayX P Q n X.note I :=
  ex_struct hR (fun _ => rfl) (Nat.le_of_ble_eq_true rfl) (
    ex_elem (ex_plain (ex_simple hR (sayt_string hR))) <|
    ex_elem (ex_plain (xsay_attachedText n hR)) <|
    ex_nil hR)

theorem xsay_releaseNotes (n : Nat) (hR : Rules P Q) : ∃ I, SayX P Q n X.releaseNotes I :=
  ex_struct hR (fun _ => rfl) (Nat.le_of_ble_eq_true rfl) (
    ex_elem (ex_plain (ex_simple hR (sayt_string hR))) <|
    ex_elem (ex_plain (ex_simple hR (sayt_string hR))) <|
    ex_elem (ex_plain (ex_simple hR (sayt_string hR))) <|
    ex_elem (ex_plain (ex_simple hR (sayt_string hR))) <|
    ex_elem (ex_plain (ex_simple hR (sayt_string hR))) <|
    ex_elem (ex_plain (ex_simple hR (sayt_string hR))) <|
    ex_elem (ex_nlist hR (ex_simple hR (sayt_string hR))) <|
    ex_elem (ex_nlist hR (ex_simple hR (sayt_string hR))) <|
    ex_elem (ex_nlist hR (xsay_issue n hR)) <|
    ex_elem (ex_nlist hR (xsay_note n hR)) <|
    ex_elem (ex_nlist hR (xsay_property n hR)) <|
    ex_nil hR)

theorem xsay_swid (n : Nat) (hR : Rules P Q) : ∃ I, SayX P Q n X.swid I :=
  ex_struct hR (fun _ => rfl) (Nat.le_of_ble_eq_true rfl) (
    ex_elem (ex_ptr (xsay_attachedText n hR)) <|
    ex_attr (sayt_string hR) <|
    ex_attr (sayt_string hR) <|
    ex_attr (sayt_string hR) <|
    ex_attr (sayt_string hR) <|
    ex_attrPtr (sayt_int hR) <|
    ex_attrPtr (sayt_bool hR) <|
    ex_nil hR)

theorem xsay_asserterChoice (n : Nat) (hR : Rules P Q) : ∃ I, SayX P Q n X.asserterChoice I := by
  obtain ⟨O, hO⟩ := xsay_organizationalEntity n hR
  obtain ⟨C, hC⟩ := xsay_organizationalContact n hR
  have hB := sayx_bomReference (n := n) hR
  have raw : SayFs P Q n X.asserterChoiceRaw _ :=
    sayf_elem (saye_ptr hO) (sayf_elem (saye_ptr hC) (sayf_elem (saye_ptr hB) (sayf_nil hR)))
  refine ⟨fun v => (∀ o ∈ v.organization, O o) ∧ (∀ c ∈ v.individual, C c) ∧ ∀ r ∈ v.bomRef, Q (sanitize r.val) ∧ True,
    ⟨nofun, nofun, nofun⟩, fun m v x hv he => ?_, fun x a b hx hr ha hd => ?_⟩
  · simp only [X.asserterChoice] at he
    split at he
    · cases he
    · rename_i o ho _
      exact (sayf_elem (saye_ptr (m := "organization") hO) (sayf_nil hR)).enc (Nat.le_of_ble_eq_true rfl)
        ⟨by rintro _ ⟨⟩; exact hv.1 _ (by assumption), trivial⟩ he
    · rename_i o ho
      exact (sayf_elem (saye_ptr (m := "contact") hC) (sayf_nil hR)).enc (Nat.le_of_ble_eq_true rfl)
        ⟨by rintro _ ⟨⟩; exact hv.2.1 _ (by assumption), trivial⟩ he
    · exact (sayf_elem (saye_ptr (m := "ref") hB) (sayf_nil hR)).enc (Nat.le_of_ble_eq_true rfl)
        ⟨by rintro _ ⟨⟩; exact hv.2.2 _ (by assumption), trivial⟩ he
    · cases he
  · simp only [X.asserterChoice] at hd
    split at hd
    · cases hd
    · rename_i p hp
      have hk := raw.dec hR (Nat.le_of_lt hx) hr raw.zero hp
      cases hd
      exact ⟨hk.1, hk.2.1, hk.2.2.1⟩


theorem xsay_patentAssertion (n : Nat) (hR : Rules P Q) : ∃ I, SayX P Q n X.patentAssertion I :=
  ex_struct hR (fun _ => rfl) (Nat.le_of_ble_eq_true rfl) (
    ex_attr (sayt_string hR) <|
    ex_elem (ex_nlist hR ⟨_, sayx_bomReference hR⟩) <|
    ex_elem (ex_plain (ex_simple hR (sayt_string hR))) <|
    ex_elem (ex_ptr (xsay_asserterChoice n hR)) <|
    ex_elem (ex_plain (ex_simple hR (sayt_string hR))) <|
    ex_nil hR)

theorem xsay_componentWith (C : XCodec Component) (n : Nat) (hR : Rules P Q) (hC : ∃ I, SayX P Q n C I) :
    ∃ I, SayX P Q (n + 1) (X.componentWith C) I :=
  have hP := xsay_pedigreeWith C n hR hC
  ex_struct' hR (fun _ => rfl) (Nat.le_of_ble_eq_true rfl) (
    ex_attr (sayt_string hR) <|
    ex_attr (sayt_string hR) <|
    ex_attr (sayt_string hR) <|
    ex_elem (ex_ptr (xsay_organizationalEntity n hR)) <|
    ex_elem (ex_ptr (xsay_organizationalEntity n hR)) <|
    ex_elem (ex_plain (ex_simple hR (sayt_string hR))) <|
    ex_elem (ex_nlist hR (xsay_organizationalContact n hR)) <|
    ex_elem (ex_plain (ex_simple hR (sayt_string hR))) <|
    ex_elem (ex_plain (ex_simple hR (sayt_string hR))) <|
    ex_elem (ex_plain (ex_simple hR (sayt_string hR))) <|
    ex_elem (ex_plain (ex_simple hR (sayt_string hR))) <|
    ex_elem (ex_plain (ex_simple hR (sayt_string hR))) <|
    ex_elem (ex_plain (ex_simple hR (sayt_string hR))) <|
    ex_elem (ex_nlist hR (xsay_hash n hR)) <|
    ex_elem (ex_slice rfl (xsay_licenses n hR)) <|
    ex_elem (ex_plain (ex_simple hR (sayt_string hR))) <|
    ex_elem (ex_plain (ex_simple hR (sayt_string hR))) <|
    ex_elem (ex_plain (ex_simple hR (sayt_string hR))) <|
    ex_elem (ex_list (ex_simple hR (sayt_string hR))) <|
    ex_elem (ex_list (ex_simple hR (sayt_string hR))) <|
    ex_elem (ex_ptr (xsay_swid n hR)) <|
    ex_elem (ex_ptr (ex_simple hR (sayt_bool hR))) <|
    ex_elem (ex_ptr hP) <|
    ex_elem (ex_nlist hR (xsay_externalReference n hR)) <|
    ex_elem (ex_nlist hR (xsay_property n hR)) <|
    ex_elem (ex_nlist hR hC) <|
    ex_elem (ex_ptr (xsay_evidence n hR)) <|
    ex_elem (ex_ptr (xsay_releaseNotes n hR)) <|
    ex_elem (ex_ptr (xsay_mlModelCard n hR)) <|
    ex_elem (ex_list (xsay_componentData n hR)) <|
    ex_elem (ex_ptr (xsay_cryptoProperties n hR)) <|
    ex_elem (ex_nlist hR (ex_simple hR (sayt_string hR))) <|
    ex_elem (ex_ptr (ex_simple hR (sayt_bool hR))) <|
    ex_elem (ex_nlist hR (xsay_patentAssertion n hR)) <|
    ex_elem (ex_plain (ex_simple hR (sayt_string hR))) <|
    ex_skip <|
    ex_nil hR)

theorem xsay_component (n : Nat) (hR : Rules P Q) : ∃ I, SayX P Q n X.component I := by
  induction n with
  | zero =>
    obtain ⟨I, h⟩ := xsay_componentWith (X.bottom {}) 0 hR
      ⟨fun x => x = {}, ⟨rfl, fun m a x _ he => (nomatch he), fun x a b hx => (by omega)⟩⟩
    refine ⟨fun x => x = X.component.zero, rfl, fun m a x ha he => ?_, fun x a b hx => by omega⟩
    subst ha
    have hh : Component.height {} = 1 := rfl
    have e : X.component.enc m {} = (X.componentWith (X.bottom {})).enc m {} := by
      show (X.componentN (Component.height {})).enc m {} = _
      rw [hh]
      rfl
    exact h.enc m {} x h.zero (e ▸ he)
  | succ n ih =>
    obtain ⟨I, h⟩ := xsay_componentWith _ n hR ih
    exact ⟨I, h.zero, fun m a x ha he => h.enc m a x ha (by rw [← xcomponent_enc]; exact he),
      fun x a b hx hr ha hd => h.dec x a b hx hr ha (by rw [← xcomponent_dec]; exact hd)⟩


mutual
theorem spliced_all {known : List String} {stop : String} {G : Xml → Prop}
    (hG : ∀ m as ks, G (.elem m as ks) → ∀ k ∈ ks, G k) : ∀ (xs ys : List Xml), (∀ x ∈ xs, G x) →
    X.spliced known stop xs = some ys → ∀ y ∈ ys, G y
  | [], ys, _, h => by simp only [X.spliced, Option.some.injEq] at h; subst h; simp
  | x :: xs, ys, hx, h => by
    have h1 := spliceOne_all (known := known) (stop := stop) hG x
    have h2 := spliced_all (known := known) (stop := stop) hG xs
    simp only [X.spliced] at h
    split at h
    · rename_i as bs ha hb
      simp only [Option.some.injEq] at h
      subst h
      intro y hy
      rcases List.mem_append.1 hy with hy | hy
      · exact h1 _ (hx x List.mem_cons_self) ha y hy
      · exact h2 _ (fun z hz => hx z (List.mem_cons_of_mem _ hz)) hb y hy
    · cases h
theorem spliceOne_all {known : List String} {stop : String} {G : Xml → Prop}
    (hG : ∀ m as ks, G (.elem m as ks) → ∀ k ∈ ks, G k) : ∀ (x : Xml) (ys : List Xml), G x →
    X.spliceOne known stop x = some ys → ∀ y ∈ ys, G y
  | .text _, ys, _, h => by simp only [X.spliceOne, Option.some.injEq] at h; subst h; simp
  | .elem m as ks, ys, hx, h => by
    have h2 := spliced_all (known := known) (stop := stop) hG ks
    simp only [X.spliceOne] at h
    split at h
    · simp only [Option.some.injEq] at h
      subst h
      intro y hy
      simp only [List.mem_singleton] at hy
      exact hy ▸ hx
    · split at h
      · cases h
      · exact h2 ys (hG _ _ _ hx) h
end

theorem lastAttr_keeps {V : String → Prop} {m : String} : ∀ (as : List (String × String)) (old : String),
    (∀ kv ∈ as, V kv.2) → V old → V (X.lastAttr m as old)
  | [], old, _, h => h
  | kv :: as, old, hp, h => by
    have := lastAttr_keeps (V := V) (m := m) as (if kv.1 = m then kv.2 else old)
      (fun y hy => hp y (List.mem_cons_of_mem _ hy)) (by split; exact hp kv List.mem_cons_self; exact h)
    exact this

theorem urls_keeps (hR : Rules P Q) {m : String} {x : Xml} {us : List String} (hx : Heard P x)
    (h : X.urls m x.kids = some us) : ∀ u ∈ us, Q (sanitize u) := by
  simp only [X.urls, Option.map_eq_some_iff] at h
  obtain ⟨ys, hy, rfl⟩ := h
  intro u hu
  obtain ⟨y, h1, rfl⟩ := List.mem_map.1 hu
  have := spliced_all (G := Heard P) (fun m as ks h k hk => h.kid hk) _ _ (fun k hk => hx.kid hk) hy y h1
  exact hR.text _ (this.text hR)

theorem attrUnlessEmpty_wrote {m s : String} (h : Q (sanitize s)) : ∀ kv ∈ X.attrUnlessEmpty m s, Q kv.2 := by
  unfold X.attrUnlessEmpty
  split
  · simpa using h
  · simp

theorem urlsElem_wrote (hR : Rules P Q) {m : String} {p : PSlice String} (h : ∀ u ∈ p.elems, Q (sanitize u)) :
    ∀ k ∈ X.urlsElem m p, Wrote Q k := by
  have key : ∀ k ∈ [Xml.elem m [] (p.elems.map fun u => .elem "url" [] (textKids (sanitize u)))], Wrote Q k := by
    intro k hk
    simp only [List.mem_singleton] at hk
    subst hk
    refine wrote_elem hR (by simp) fun k hk => ?_
    obtain ⟨u, hu, rfl⟩ := List.mem_map.1 hk
    exact wrote_text (by simp) (h u hu)
  unfold X.urlsElem
  split
  · simp
  · exact key

theorem xsay_dataClassification (n : Nat) (hR : Rules P Q) : ∃ I, SayX P Q n X.dataClassification I := by
  obtain ⟨G, hG⟩ := xsay_dataGovernance n hR
  let D : DataClassification → Prop := fun d => Q (sanitize d.flow) ∧ Q (sanitize d.classification) ∧ Q (sanitize d.name) ∧
    Q (sanitize d.description) ∧ (∀ g ∈ d.governance, G g) ∧ (∀ u ∈ d.source.elems, Q (sanitize u)) ∧
      ∀ u ∈ d.destination.elems, Q (sanitize u)
  refine ⟨D, ⟨hR.zero, hR.zero, hR.zero, hR.zero, nofun, nofun, nofun⟩, fun m v x hv he => ?_, fun x a b hx hr ha hd => ?_⟩
  · obtain ⟨a1, a2, a3, a4, a5, a6, a7⟩ := hv
    simp only [X.dataClassification] at he
    split at he
    · cases he
    · rename_i gs hg
      simp only [Option.some.injEq] at he
      subst he
      refine wrote_elem hR (fun kv hk => ?_) (fun k hk => ?_)
      · rcases List.mem_append.1 hk with hk | hk
        · exact attrUnlessEmpty_wrote a3 kv hk
        · exact attrUnlessEmpty_wrote a4 kv hk
      · rcases List.mem_append.1 hk with hk | hk
        · rcases List.mem_append.1 hk with hk | hk
          · rcases List.mem_append.1 hk with hk | hk
            · split at hk
              · simp only [List.mem_singleton] at hk
                subst hk
                exact wrote_text (attrUnlessEmpty_wrote a1) a2
              · cases hk
            · exact (saye_ptr hG).enc _ _ a5 hg k hk
          · exact urlsElem_wrote hR a6 k hk
        · exact urlsElem_wrote hR a7 k hk
  · simp only [X.dataClassification] at hd
    split at hd
    · cases hd
    · split at hd
      · cases hd
      · rename_i ys hy
        have hys := spliced_all (G := fun k => k.depth < n ∧ Heard P k)
          (fun m as ks h k hk => ⟨kid_depth' h.1 hk, h.2.kid hk⟩) _ _ (fun k hk => ⟨kid_depth' hx hk, hr.kid hk⟩) hy
        have hat : ∀ y : Xml, Heard P y → ∀ kv ∈ y.attrs, Q (sanitize kv.2) := fun y h kv hk => hR.text _ (h.attr hk)
        refine decAll_keeps (G := fun k => k.depth < n ∧ Heard P k) (I := D) (fun y a b hy ha hd => ?_) _ _ _ hys ?_ hd
        · obtain ⟨a1, a2, a3, a4, a5, a6, a7⟩ := ha
          cases y with
          | text s => cases hd; exact ⟨a1, a2, a3, a4, a5, a6, a7⟩
          | elem name as ks =>
            simp only [X.dataClassificationStep] at hd
            split at hd
            · cases hd
              exact ⟨lastAttr_keeps (V := fun s => Q (sanitize s)) as a.flow (hat _ hy.2) a1,
                hR.text _ (hy.2.text hR), a3, a4, a5, a6, a7⟩
            · split at hd
              · rw [Option.map_eq_some_iff] at hd
                obtain ⟨g, hg, rfl⟩ := hd
                exact ⟨a1, a2, a3, a4, by rintro _ ⟨⟩; exact hG.dec _ _ _ hy.1 hy.2 hG.zero hg, a6, a7⟩
              · split at hd
                · rw [Option.map_eq_some_iff] at hd
                  obtain ⟨us, hu, rfl⟩ := hd
                  split
                  · exact ⟨a1, a2, a3, a4, a5, urls_keeps hR hy.2 hu, a7⟩
                  · exact ⟨a1, a2, a3, a4, a5, a6, a7⟩
                · split at hd
                  · rw [Option.map_eq_some_iff] at hd
                    obtain ⟨us, hu, rfl⟩ := hd
                    split
                    · exact ⟨a1, a2, a3, a4, a5, a6, urls_keeps hR hy.2 hu⟩
                    · exact ⟨a1, a2, a3, a4, a5, a6, a7⟩
                  · cases hd; exact ⟨a1, a2, a3, a4, a5, a6, a7⟩
        · obtain ⟨a1, a2, a3, a4, a5, a6, a7⟩ := ha
          exact ⟨a1, a2, lastAttr_keeps (V := fun s => Q (sanitize s)) _ _ (hat _ hr) a3,
            lastAttr_keeps (V := fun s => Q (sanitize s)) _ _ (hat _ hr) a4, a5, a6, a7⟩


theorem xsay_serviceWith (C : XCodec Service) (n : Nat) (hR : Rules P Q) (hC : ∃ I, SayX P Q n C I) :
    ∃ I, SayX P Q (n + 1) (X.serviceWith C) I :=
  ex_struct' hR (fun _ => rfl) (Nat.le_of_ble_eq_true rfl) (
    ex_attr (sayt_string hR) <|
    ex_elem (ex_ptr (xsay_organizationalEntity n hR)) <|
    ex_elem (ex_plain (ex_simple hR (sayt_string hR))) <|
    ex_elem (ex_plain (ex_simple hR (sayt_string hR))) <|
    ex_elem (ex_plain (ex_simple hR (sayt_string hR))) <|
    ex_elem (ex_plain (ex_simple hR (sayt_string hR))) <|
    ex_elem (ex_nlist hR (ex_simple hR (sayt_string hR))) <|
    ex_elem (ex_ptr (ex_simple hR (sayt_bool hR))) <|
    ex_elem (ex_ptr (ex_simple hR (sayt_bool hR))) <|
    ex_elem (ex_nlist hR (xsay_dataClassification n hR)) <|
    ex_elem (ex_slice rfl (xsay_licenses n hR)) <|
    ex_elem (ex_nlist hR (xsay_externalReference n hR)) <|
    ex_elem (ex_nlist hR (xsay_property n hR)) <|
    ex_elem (ex_nlist hR hC) <|
    ex_elem (ex_ptr (xsay_releaseNotes n hR)) <|
    ex_elem (ex_nlist hR (ex_simple hR (sayt_string hR))) <|
    ex_elem (ex_plain (ex_simple hR (sayt_string hR))) <|
    ex_elem (ex_nlist hR (xsay_patentAssertion n hR)) <|
    ex_skip <|
    ex_nil hR)

theorem xsay_service (n : Nat) (hR : Rules P Q) : ∃ I, SayX P Q n X.service I := by
  induction n with
  | zero =>
    obtain ⟨I, h⟩ := xsay_serviceWith (X.bottom {}) 0 hR
      ⟨fun x => x = {}, ⟨rfl, fun m a x _ he => (nomatch he), fun x a b hx => (by omega)⟩⟩
    refine ⟨fun x => x = X.service.zero, rfl, fun m a x ha he => ?_, fun x a b hx => by omega⟩
    subst ha
    rw [xservice_enc] at he
    exact h.enc m _ x h.zero he
  | succ n ih =>
    obtain ⟨I, h⟩ := xsay_serviceWith _ n hR ih
    exact ⟨I, h.zero, fun m a x ha he => h.enc m a x ha (by rw [← xservice_enc]; exact he),
      fun x a b hx hr ha hd => h.dec x a b hx hr ha (by rw [← xservice_dec]; exact hd)⟩


theorem xsay_annotator (n : Nat) (hR : Rules P Q) : ∃ I, SayX P Q n X.annotator I :=
  ex_struct hR (fun _ => rfl) (Nat.le_of_ble_eq_true rfl) (
    ex_elem (ex_ptr (xsay_organizationalEntity n hR)) <|
    ex_elem (ex_ptr (xsay_organizationalContact n hR)) <|
    ex_elem (ex_ptr (xsay_component n hR)) <|
    ex_elem (ex_ptr (xsay_service n hR)) <|
    ex_nil hR)

theorem xsay_annotation (n : Nat) (hR : Rules P Q) : ∃ I, SayX P Q n X.annotation I :=
  ex_struct hR (fun _ => rfl) (Nat.le_of_ble_eq_true rfl) (
    ex_attr (sayt_string hR) <|
    ex_elem (ex_nlist hR ⟨_, sayx_bomReference hR⟩) <|
    ex_elem (ex_ptr (xsay_annotator n hR)) <|
    ex_elem (ex_plain (ex_simple hR (sayt_string hR))) <|
    ex_elem (ex_plain (ex_simple hR (sayt_string hR))) <|
    ex_skip <|
    ex_nil hR)

theorem xsay_assessor (n : Nat) (hR : Rules P Q) : ∃ I, SayX P Q n X.assessor I :=
  ex_struct hR (fun _ => rfl) (Nat.le_of_ble_eq_true rfl) (
    ex_attr (sayt_bomReference hR) <|
    ex_elem (ex_plain (ex_simple hR (sayt_bool hR))) <|
    ex_elem (ex_ptr (xsay_organizationalEntity n hR)) <|
    ex_nil hR)

theorem xsay_attestationConformance (n : Nat) (hR : Rules P Q) : ∃ I, SayX P Q n X.attestationConformance I :=
  ex_struct hR (fun _ => rfl) (Nat.le_of_ble_eq_true rfl) (
    ex_elem (ex_ptr (ex_simple hR (sayt_f64 hR))) <|
    ex_elem (ex_plain (ex_simple hR (sayt_string hR))) <|
    ex_elem (ex_nlist hR ⟨_, sayx_bomReference hR⟩) <|
    ex_nil hR)

theorem xsay_attestationConfidence (n : Nat) (hR : Rules P Q) : ∃ I, SayX P Q n X.attestationConfidence I :=
  ex_struct hR (fun _ => rfl) (Nat.le_of_ble_eq_true rfl) (
    ex_elem (ex_ptr (ex_simple hR (sayt_f64 hR))) <|
    ex_elem (ex_plain (ex_simple hR (sayt_string hR))) <|
    ex_nil hR)

theorem xsay_attestationMap (n : Nat) (hR : Rules P Q) : ∃ I, SayX P Q n X.attestationMap I :=
  ex_struct hR (fun _ => rfl) (Nat.le_of_ble_eq_true rfl) (
    ex_elem (ex_plain (ex_simple hR (sayt_string hR))) <|
    ex_elem (ex_nlist hR ⟨_, sayx_bomReference hR⟩) <|
    ex_elem (ex_nlist hR ⟨_, sayx_bomReference hR⟩) <|
    ex_elem (ex_ptr (xsay_attestationConformance n hR)) <|
    ex_elem (ex_ptr (xsay_attestationConfidence n hR)) <|
    ex_nil hR)

theorem xsay_attestation (n : Nat) (hR : Rules P Q) : ∃ I, SayX P Q n X.attestation I :=
  ex_struct hR (fun _ => rfl) (Nat.le_of_ble_eq_true rfl) (
    ex_elem (ex_plain (ex_simple hR (sayt_string hR))) <|
    ex_elem (ex_plain ⟨_, sayx_bomReference hR⟩) <|
    ex_elem (ex_list (xsay_attestationMap n hR)) <|
    ex_skip <|
    ex_nil hR)

theorem xsay_composition (n : Nat) (hR : Rules P Q) : ∃ I, SayX P Q n X.composition I :=
  ex_struct hR (fun _ => rfl) (Nat.le_of_ble_eq_true rfl) (
    ex_attr (sayt_string hR) <|
    ex_elem (ex_plain (ex_simple hR (sayt_string hR))) <|
    ex_elem (ex_nlist hR ⟨_, sayx_bomReference hR⟩) <|
    ex_elem (ex_nlist hR ⟨_, sayx_bomReference hR⟩) <|
    ex_elem (ex_nlist hR ⟨_, sayx_bomReference hR⟩) <|
    ex_skip <|
    ex_nil hR)

theorem xsay_claim (n : Nat) (hR : Rules P Q) : ∃ I, SayX P Q n X.claim I :=
  ex_struct hR (fun _ => rfl) (Nat.le_of_ble_eq_true rfl) (
    ex_attr (sayt_string hR) <|
    ex_elem (ex_plain ⟨_, sayx_bomReference hR⟩) <|
    ex_elem (ex_plain (ex_simple hR (sayt_string hR))) <|
    ex_elem (ex_nlist hR ⟨_, sayx_bomReference hR⟩) <|
    ex_elem (ex_plain (ex_simple hR (sayt_string hR))) <|
    ex_elem (ex_list ⟨_, sayx_bomReference hR⟩) <|
    ex_elem (ex_list ⟨_, sayx_bomReference hR⟩) <|
    ex_elem (ex_nlist hR (xsay_externalReference n hR)) <|
    ex_skip <|
    ex_nil hR)

theorem xsay_evidenceDataContents (n : Nat) (hR : Rules P Q) : ∃ I, SayX P Q n X.evidenceDataContents I :=
  ex_struct hR (fun _ => rfl) (Nat.le_of_ble_eq_true rfl) (
    ex_elem (ex_ptr (xsay_attachedText n hR)) <|
    ex_elem (ex_plain (ex_simple hR (sayt_string hR))) <|
    ex_nil hR)

theorem xsay_evidenceData (n : Nat) (hR : Rules P Q) : ∃ I, SayX P Q n X.evidenceData I :=
  ex_struct hR (fun _ => rfl) (Nat.le_of_ble_eq_true rfl) (
    ex_elem (ex_plain (ex_simple hR (sayt_string hR))) <|
    ex_elem (ex_ptr (xsay_evidenceDataContents n hR)) <|
    ex_elem (ex_nptr hR (xsay_dataClassification n hR)) <|
    ex_elem (ex_list (ex_simple hR (sayt_string hR))) <|
    ex_elem (ex_ptr (xsay_dataGovernance n hR)) <|
    ex_nil hR)

theorem xsay_declarationEvidence (n : Nat) (hR : Rules P Q) : ∃ I, SayX P Q n X.declarationEvidence I :=
  ex_struct hR (fun _ => rfl) (Nat.le_of_ble_eq_true rfl) (
    ex_attr (sayt_string hR) <|
    ex_elem (ex_plain (ex_simple hR (sayt_string hR))) <|
    ex_elem (ex_plain (ex_simple hR (sayt_string hR))) <|
    ex_elem (ex_list (xsay_evidenceData n hR)) <|
    ex_elem (ex_plain (ex_simple hR (sayt_string hR))) <|
    ex_elem (ex_plain (ex_simple hR (sayt_string hR))) <|
    ex_elem (ex_ptr (xsay_organizationalContact n hR)) <|
    ex_elem (ex_ptr (xsay_organizationalContact n hR)) <|
    ex_skip <|
    ex_nil hR)

theorem xsay_targets (n : Nat) (hR : Rules P Q) : ∃ I, SayX P Q n X.targets I :=
  ex_struct hR (fun _ => rfl) (Nat.le_of_ble_eq_true rfl) (
    ex_elem (ex_nlist hR (xsay_organizationalEntity n hR)) <|
    ex_elem (ex_nlist hR (xsay_component n hR)) <|
    ex_elem (ex_nlist hR (xsay_service n hR)) <|
    ex_nil hR)

theorem xsay_signatory (n : Nat) (hR : Rules P Q) : ∃ I, SayX P Q n X.signatory I :=
  ex_struct hR (fun _ => rfl) (Nat.le_of_ble_eq_true rfl) (
    ex_elem (ex_plain (ex_simple hR (sayt_string hR))) <|
    ex_elem (ex_plain (ex_simple hR (sayt_string hR))) <|
    ex_skip <|
    ex_elem (ex_ptr (xsay_organizationalEntity n hR)) <|
    ex_elem (ex_ptr (xsay_externalReference n hR)) <|
    ex_nil hR)

theorem xsay_affirmation (n : Nat) (hR : Rules P Q) : ∃ I, SayX P Q n X.affirmation I :=
  ex_struct hR (fun _ => rfl) (Nat.le_of_ble_eq_true rfl) (
    ex_elem (ex_plain (ex_simple hR (sayt_string hR))) <|
    ex_elem (ex_nlist hR (xsay_signatory n hR)) <|
    ex_skip <|
    ex_nil hR)

theorem xsay_declarations (n : Nat) (hR : Rules P Q) : ∃ I, SayX P Q n X.declarations I :=
  ex_struct hR (fun _ => rfl) (Nat.le_of_ble_eq_true rfl) (
    ex_elem (ex_nlist hR (xsay_assessor n hR)) <|
    ex_elem (ex_nlist hR (xsay_attestation n hR)) <|
    ex_elem (ex_nlist hR (xsay_claim n hR)) <|
    ex_elem (ex_nlist hR (xsay_declarationEvidence n hR)) <|
    ex_elem (ex_ptr (xsay_targets n hR)) <|
    ex_elem (ex_ptr (xsay_affirmation n hR)) <|
    ex_skip <|
    ex_nil hR)

theorem xsay_priorityApplication (n : Nat) (hR : Rules P Q) : ∃ I, SayX P Q n X.priorityApplication I :=
  ex_struct hR (fun _ => rfl) (Nat.le_of_ble_eq_true rfl) (
    ex_elem (ex_plain (ex_simple hR (sayt_string hR))) <|
    ex_elem (ex_plain (ex_simple hR (sayt_string hR))) <|
    ex_elem (ex_plain (ex_simple hR (sayt_string hR))) <|
    ex_nil hR)

theorem xsay_patent (n : Nat) (hR : Rules P Q) : ∃ I, SayX P Q n X.patent I :=
  ex_struct hR (fun _ => rfl) (Nat.le_of_ble_eq_true rfl) (
    ex_attr (sayt_string hR) <|
    ex_elem (ex_plain (ex_simple hR (sayt_string hR))) <|
    ex_elem (ex_plain (ex_simple hR (sayt_string hR))) <|
    ex_elem (ex_plain (ex_simple hR (sayt_string hR))) <|
    ex_elem (ex_ptr (xsay_priorityApplication n hR)) <|
    ex_elem (ex_plain (ex_simple hR (sayt_string hR))) <|
    ex_elem (ex_plain (ex_simple hR (sayt_string hR))) <|
    ex_elem (ex_plain (ex_simple hR (sayt_string hR))) <|
    ex_elem (ex_plain (ex_simple hR (sayt_string hR))) <|
    ex_elem (ex_plain (ex_simple hR (sayt_string hR))) <|
    ex_elem (ex_plain (ex_simple hR (sayt_string hR))) <|
    ex_elem (ex_plain (ex_simple hR (sayt_string hR))) <|
    ex_elem (ex_list (xsay_organizationalEntityOrContact n hR)) <|
    ex_elem (ex_nlist hR (xsay_externalReference n hR)) <|
    ex_nil hR)

theorem xsay_patentFamily (n : Nat) (hR : Rules P Q) : ∃ I, SayX P Q n X.patentFamily I :=
  ex_struct hR (fun _ => rfl) (Nat.le_of_ble_eq_true rfl) (
    ex_attr (sayt_string hR) <|
    ex_elem (ex_plain (ex_simple hR (sayt_string hR))) <|
    ex_elem (ex_ptr (xsay_priorityApplication n hR)) <|
    ex_elem (ex_nlist hR ⟨_, sayx_bomReference hR⟩) <|
    ex_elem (ex_nlist hR (xsay_externalReference n hR)) <|
    ex_nil hR)

theorem xsay_standardRequirement (n : Nat) (hR : Rules P Q) : ∃ I, SayX P Q n X.standardRequirement I :=
  ex_struct hR (fun _ => rfl) (Nat.le_of_ble_eq_true rfl) (
    ex_attr (sayt_string hR) <|
    ex_elem (ex_plain (ex_simple hR (sayt_string hR))) <|
    ex_elem (ex_plain (ex_simple hR (sayt_string hR))) <|
    ex_elem (ex_plain (ex_simple hR (sayt_string hR))) <|
    ex_elem (ex_nlist hR (ex_simple hR (sayt_string hR))) <|
    ex_elem (ex_list (ex_simple hR (sayt_string hR))) <|
    ex_elem (ex_plain (ex_simple hR (sayt_string hR))) <|
    ex_elem (ex_nlist hR (xsay_property n hR)) <|
    ex_elem (ex_nlist hR (xsay_externalReference n hR)) <|
    ex_nil hR)

theorem xsay_standardLevel (n : Nat) (hR : Rules P Q) : ∃ I, SayX P Q n X.standardLevel I :=
  ex_struct hR (fun _ => rfl) (Nat.le_of_ble_eq_true rfl) (
    ex_attr (sayt_string hR) <|
    ex_elem (ex_plain (ex_simple hR (sayt_string hR))) <|
    ex_elem (ex_plain (ex_simple hR (sayt_string hR))) <|
    ex_elem (ex_plain (ex_simple hR (sayt_string hR))) <|
    ex_elem (ex_nlist hR (ex_simple hR (sayt_string hR))) <|
    ex_nil hR)

theorem xsay_standardDefinition (n : Nat) (hR : Rules P Q) : ∃ I, SayX P Q n X.standardDefinition I :=
  ex_struct hR (fun _ => rfl) (Nat.le_of_ble_eq_true rfl) (
    ex_attr (sayt_string hR) <|
    ex_elem (ex_plain (ex_simple hR (sayt_string hR))) <|
    ex_elem (ex_plain (ex_simple hR (sayt_string hR))) <|
    ex_elem (ex_plain (ex_simple hR (sayt_string hR))) <|
    ex_elem (ex_plain (ex_simple hR (sayt_string hR))) <|
    ex_elem (ex_nlist hR (xsay_standardRequirement n hR)) <|
    ex_elem (ex_nlist hR (xsay_standardLevel n hR)) <|
    ex_elem (ex_nlist hR (xsay_externalReference n hR)) <|
    ex_skip <|
    ex_nil hR)

theorem enclosed_wrote {α : Type} (hR : Rules P Q) {m : String} {f : α → Option (List Xml)} {p : PSlice α} {ks : List Xml}
    (h : ∀ a ∈ p.elems, ∀ ls, f a = some ls → ∀ k ∈ ls, Wrote Q k) (he : X.enclosed m f p = some ks) :
    ∀ k ∈ ks, Wrote Q k := by
  have key : (X.encEach f p.elems).map (fun ks => [Xml.elem m [] ks]) = some ks → ∀ k ∈ ks, Wrote Q k := by
    intro h'
    rw [Option.map_eq_some_iff] at h'
    obtain ⟨ls, hl, rfl⟩ := h'
    intro k hk
    simp only [List.mem_singleton] at hk
    subst hk
    exact wrote_elem hR (by simp) (encEach_wrote _ _ h hl)
  cases p with
  | nil => cases he; simp
  | nilSlice => exact key he
  | list l => exact key he

theorem xsay_definitions (n : Nat) (hR : Rules P Q) : ∃ I, SayX P Q n X.definitions I := by
  obtain ⟨S, hS⟩ := xsay_standardDefinition n hR
  obtain ⟨A, hA⟩ := xsay_patent n hR
  obtain ⟨B, hB⟩ := xsay_patentFamily n hR
  let C : PatentChoice → Prop := fun c => (∀ p ∈ c.patent, A p) ∧ ∀ p ∈ c.patentFamily, B p
  let D : Definitions → Prop := fun d => (∀ s ∈ d.standards.elems, S s) ∧ ∀ c ∈ d.patents.elems, C c
  refine ⟨D, ⟨nofun, nofun⟩, fun m v x hv he => ?_, fun x a b hx hr ha hd => ?_⟩
  · simp only [X.definitions] at he
    split at he
    · rename_i ss ps h1 h2
      simp only [Option.some.injEq] at he
      subst he
      refine wrote_elem hR (by simp) fun k hk => ?_
      rcases List.mem_append.1 hk with hk | hk
      · exact enclosed_wrote hR (fun a ha ls hl => sayx_toList hS (hv.1 a ha) hl) h1 k hk
      · refine enclosed_wrote hR (fun a ha ls hl => ?_) h2 k hk
        simp only [X.patentChoiceEnc] at hl
        split at hl
        · exact sayx_toList hA ((hv.2 a ha).1 _ (by assumption)) hl
        · exact sayx_toList hB ((hv.2 a ha).2 _ (by assumption)) hl
        · cases hl; simp
    · cases he
  · refine decAll_keeps (G := fun k => k.depth < n ∧ Heard P k) (I := D) (fun y a b hy ha hd => ?_) _ _ _
      (fun k hk => ⟨kid_depth' hx hk, hr.kid hk⟩) ha hd
    cases y with
    | text s => cases hd; exact ha
    | elem name as ks =>
      simp only [X.definitionsStep] at hd
      split at hd
      · rw [Option.map_eq_some_iff] at hd
        obtain ⟨ss, hs, rfl⟩ := hd
        split
        · refine ⟨decEach_keeps ks ss (fun k hk bs hb => ?_) hs, ha.2⟩
          have hkd := kid_depth' (x := .elem name as ks) hy.1 hk
          have hkr := hy.2.kid (x := .elem name as ks) hk
          cases k with
          | text s => cases hb; simp
          | elem name as ks =>
            simp only [X.standardDec] at hb
            split at hb
            · rw [Option.map_eq_some_iff] at hb
              obtain ⟨p, hp, rfl⟩ := hb
              simpa using hS.dec _ _ _ hkd hkr hS.zero hp
            · cases hb
        · exact ha
      · split at hd
        · rw [Option.map_eq_some_iff] at hd
          obtain ⟨ss, hs, rfl⟩ := hd
          split
          · refine ⟨ha.1, decEach_keeps (I := C) ks ss (fun k hk bs hb => ?_) hs⟩
            have hkd := kid_depth' (x := .elem name as ks) hy.1 hk
            have hkr := hy.2.kid (x := .elem name as ks) hk
            cases k with
            | text s => cases hb; simp
            | elem name as ks =>
              simp only [X.patentChoiceDec] at hb
              split at hb
              · rw [Option.map_eq_some_iff] at hb
                obtain ⟨p, hp, rfl⟩ := hb
                intro c hc
                simp only [List.mem_singleton] at hc
                subst hc
                exact ⟨by rintro _ ⟨⟩; exact hA.dec _ _ _ hkd hkr hA.zero hp, nofun⟩
              · split at hb
                · rw [Option.map_eq_some_iff] at hb
                  obtain ⟨p, hp, rfl⟩ := hb
                  intro c hc
                  simp only [List.mem_singleton] at hc
                  subst hc
                  exact ⟨nofun, by rintro _ ⟨⟩; exact hB.dec _ _ _ hkd hkr hB.zero hp⟩
                · cases hb
          · exact ha
        · cases hd; exact ha


theorem xsay_dependency (n : Nat) (hR : Rules P Q) : ∃ I, SayX P Q n X.dependency I :=
  ⟨_, sayx_fresh (sayx_struct hR (fun _ => rfl) (Nat.le_of_ble_eq_true rfl)
    (sayf_attr (sayt_string hR) (sayf_elem (saye_list (sayx_dependencyRef hR))
      (sayf_elem (saye_list (sayx_dependencyRef hR)) (sayf_nil hR)))))⟩


theorem xsay_resourceReferenceChoice (n : Nat) (hR : Rules P Q) : ∃ I, SayX P Q n X.resourceReferenceChoice I :=
  ex_struct hR (fun _ => rfl) (Nat.le_of_ble_eq_true rfl) (
    ex_elem (ex_plain (ex_simple hR (sayt_string hR))) <|
    ex_elem (ex_ptr (xsay_externalReference n hR)) <|
    ex_nil hR)

theorem xsay_environmentVariables (n : Nat) (hR : Rules P Q) : ∃ I, SayX P Q n X.environmentVariables I := by
  obtain ⟨L, hL⟩ := xsay_property n hR
  have hs := sayx_simple (n := n) hR (sayt_string hR)
  refine ⟨fun ls => ∀ c ∈ ls, (∀ l ∈ c.property, L l) ∧ Q (sanitize c.value), none_in, fun m v x hv he => ?_,
    fun x a b hx hr ha hd => ?_⟩
  · have key : ∀ y, (X.encEach X.environmentVariableEnc v).map (fun ks => some (Xml.elem m [] ks)) = some (some y) →
        Wrote Q y := by
      intro y hy
      simp only [Option.map_eq_some_iff, Option.some.injEq] at hy
      obtain ⟨ks, hk, rfl⟩ := hy
      refine wrote_elem hR (by simp) (encEach_wrote _ _ (fun c hc ls hl => ?_) hk)
      simp only [X.environmentVariableEnc] at hl
      split at hl
      · rename_i l hl'
        split at hl
        · cases hl
        · exact sayx_toList hL ((hv c hc).1 l hl') hl
      · split at hl
        · exact sayx_toList hs (hv c hc).2 hl
        · cases hl; simp
    cases v with
    | nil => cases he
    | cons c cs => exact key x he
  · refine decEach_keeps _ _ (fun k hk bs hb => ?_) hd
    have hkd := kid_depth' hx hk
    have hkr := hr.kid hk
    cases k with
    | text s => cases hb; simp
    | elem name as ks =>
      simp only [X.environmentVariableDec] at hb
      split at hb
      · rw [Option.map_eq_some_iff] at hb
        obtain ⟨p, hp, rfl⟩ := hb
        have hk := hs.dec _ _ _ hkd hkr hR.zero hp
        intro c hc
        simp only [List.mem_singleton] at hc
        subst hc
        exact ⟨nofun, hk⟩
      · split at hb
        · rw [Option.map_eq_some_iff] at hb
          obtain ⟨p, hp, rfl⟩ := hb
          have hk := hL.dec _ _ _ hkd hkr hL.zero hp
          intro c hc
          simp only [List.mem_singleton] at hc
          subst hc
          exact ⟨by rintro _ ⟨⟩; exact hk, hR.zero⟩
        · cases hb


theorem xsay_parameter (n : Nat) (hR : Rules P Q) : ∃ I, SayX P Q n X.parameter I :=
  ex_struct hR (fun _ => rfl) (Nat.le_of_ble_eq_true rfl) (
    ex_elem (ex_plain (ex_simple hR (sayt_string hR))) <|
    ex_elem (ex_plain (ex_simple hR (sayt_string hR))) <|
    ex_elem (ex_plain (ex_simple hR (sayt_string hR))) <|
    ex_nil hR)

theorem xsay_taskInput (n : Nat) (hR : Rules P Q) : ∃ I, SayX P Q n X.taskInput I :=
  ex_struct hR (fun _ => rfl) (Nat.le_of_ble_eq_true rfl) (
    ex_elem (ex_ptr (xsay_resourceReferenceChoice n hR)) <|
    ex_elem (ex_nlist hR (xsay_parameter n hR)) <|
    ex_elem (ex_slice rfl (xsay_environmentVariables n hR)) <|
    ex_elem (ex_ptr (xsay_attachedText n hR)) <|
    ex_elem (ex_ptr (xsay_resourceReferenceChoice n hR)) <|
    ex_elem (ex_ptr (xsay_resourceReferenceChoice n hR)) <|
    ex_elem (ex_nlist hR (xsay_property n hR)) <|
    ex_nil hR)

theorem xsay_taskOutput (n : Nat) (hR : Rules P Q) : ∃ I, SayX P Q n X.taskOutput I :=
  ex_struct hR (fun _ => rfl) (Nat.le_of_ble_eq_true rfl) (
    ex_elem (ex_ptr (xsay_resourceReferenceChoice n hR)) <|
    ex_elem (ex_nlist hR (xsay_parameter n hR)) <|
    ex_elem (ex_slice rfl (xsay_environmentVariables n hR)) <|
    ex_elem (ex_ptr (xsay_attachedText n hR)) <|
    ex_elem (ex_plain (ex_simple hR (sayt_string hR))) <|
    ex_elem (ex_ptr (xsay_resourceReferenceChoice n hR)) <|
    ex_elem (ex_ptr (xsay_resourceReferenceChoice n hR)) <|
    ex_elem (ex_nlist hR (xsay_property n hR)) <|
    ex_nil hR)

theorem xsay_taskCommand (n : Nat) (hR : Rules P Q) : ∃ I, SayX P Q n X.taskCommand I :=
  ex_struct hR (fun _ => rfl) (Nat.le_of_ble_eq_true rfl) (
    ex_elem (ex_plain (ex_simple hR (sayt_string hR))) <|
    ex_elem (ex_nlist hR (xsay_property n hR)) <|
    ex_nil hR)

theorem xsay_taskStep (n : Nat) (hR : Rules P Q) : ∃ I, SayX P Q n X.taskStep I :=
  ex_struct hR (fun _ => rfl) (Nat.le_of_ble_eq_true rfl) (
    ex_elem (ex_plain (ex_simple hR (sayt_string hR))) <|
    ex_elem (ex_plain (ex_simple hR (sayt_string hR))) <|
    ex_elem (ex_nlist hR (xsay_taskCommand n hR)) <|
    ex_elem (ex_nlist hR (xsay_property n hR)) <|
    ex_nil hR)

theorem xsay_event (n : Nat) (hR : Rules P Q) : ∃ I, SayX P Q n X.event I :=
  ex_struct hR (fun _ => rfl) (Nat.le_of_ble_eq_true rfl) (
    ex_elem (ex_plain (ex_simple hR (sayt_string hR))) <|
    ex_elem (ex_plain (ex_simple hR (sayt_string hR))) <|
    ex_elem (ex_plain (ex_simple hR (sayt_string hR))) <|
    ex_elem (ex_ptr (xsay_attachedText n hR)) <|
    ex_elem (ex_ptr (xsay_resourceReferenceChoice n hR)) <|
    ex_elem (ex_ptr (xsay_resourceReferenceChoice n hR)) <|
    ex_elem (ex_nlist hR (xsay_property n hR)) <|
    ex_nil hR)

theorem xsay_taskTriggerCondition (n : Nat) (hR : Rules P Q) : ∃ I, SayX P Q n X.taskTriggerCondition I :=
  ex_struct hR (fun _ => rfl) (Nat.le_of_ble_eq_true rfl) (
    ex_elem (ex_plain (ex_simple hR (sayt_string hR))) <|
    ex_elem (ex_plain (ex_simple hR (sayt_string hR))) <|
    ex_elem (ex_nlist hR (xsay_property n hR)) <|
    ex_nil hR)

theorem xsay_taskTrigger (n : Nat) (hR : Rules P Q) : ∃ I, SayX P Q n X.taskTrigger I :=
  ex_struct hR (fun _ => rfl) (Nat.le_of_ble_eq_true rfl) (
    ex_attr (sayt_string hR) <|
    ex_elem (ex_plain (ex_simple hR (sayt_string hR))) <|
    ex_elem (ex_plain (ex_simple hR (sayt_string hR))) <|
    ex_elem (ex_plain (ex_simple hR (sayt_string hR))) <|
    ex_elem (ex_nlist hR (xsay_resourceReferenceChoice n hR)) <|
    ex_elem (ex_plain (ex_simple hR (sayt_string hR))) <|
    ex_elem (ex_ptr (xsay_event n hR)) <|
    ex_elem (ex_nlist hR (xsay_taskTriggerCondition n hR)) <|
    ex_elem (ex_plain (ex_simple hR (sayt_string hR))) <|
    ex_elem (ex_nlist hR (xsay_taskInput n hR)) <|
    ex_elem (ex_nlist hR (xsay_taskOutput n hR)) <|
    ex_elem (ex_nlist hR (xsay_property n hR)) <|
    ex_nil hR)

theorem xsay_volume (n : Nat) (hR : Rules P Q) : ∃ I, SayX P Q n X.volume I :=
  ex_struct hR (fun _ => rfl) (Nat.le_of_ble_eq_true rfl) (
    ex_elem (ex_plain (ex_simple hR (sayt_string hR))) <|
    ex_elem (ex_plain (ex_simple hR (sayt_string hR))) <|
    ex_elem (ex_plain (ex_simple hR (sayt_string hR))) <|
    ex_elem (ex_plain (ex_simple hR (sayt_string hR))) <|
    ex_elem (ex_plain (ex_simple hR (sayt_string hR))) <|
    ex_elem (ex_ptr (ex_simple hR (sayt_bool hR))) <|
    ex_elem (ex_ptr (ex_simple hR (sayt_bool hR))) <|
    ex_elem (ex_nlist hR (xsay_property n hR)) <|
    ex_nil hR)

theorem xsay_taskWorkspace (n : Nat) (hR : Rules P Q) : ∃ I, SayX P Q n X.taskWorkspace I :=
  ex_struct hR (fun _ => rfl) (Nat.le_of_ble_eq_true rfl) (
    ex_attr (sayt_string hR) <|
    ex_elem (ex_plain (ex_simple hR (sayt_string hR))) <|
    ex_elem (ex_plain (ex_simple hR (sayt_string hR))) <|
    ex_elem (ex_nlist hR (ex_simple hR (sayt_string hR))) <|
    ex_elem (ex_plain (ex_simple hR (sayt_string hR))) <|
    ex_elem (ex_nlist hR (xsay_resourceReferenceChoice n hR)) <|
    ex_elem (ex_plain (ex_simple hR (sayt_string hR))) <|
    ex_elem (ex_plain (ex_simple hR (sayt_string hR))) <|
    ex_elem (ex_plain (ex_simple hR (sayt_string hR))) <|
    ex_elem (ex_plain (ex_simple hR (sayt_string hR))) <|
    ex_elem (ex_ptr (xsay_volume n hR)) <|
    ex_elem (ex_nlist hR (xsay_property n hR)) <|
    ex_nil hR)

theorem xsay_task (n : Nat) (hR : Rules P Q) : ∃ I, SayX P Q n X.task I :=
  ex_struct hR (fun _ => rfl) (Nat.le_of_ble_eq_true rfl) (
    ex_attr (sayt_string hR) <|
    ex_elem (ex_plain (ex_simple hR (sayt_string hR))) <|
    ex_elem (ex_plain (ex_simple hR (sayt_string hR))) <|
    ex_elem (ex_plain (ex_simple hR (sayt_string hR))) <|
    ex_elem (ex_nlist hR (xsay_property n hR)) <|
    ex_elem (ex_nlist hR (xsay_resourceReferenceChoice n hR)) <|
    ex_elem (ex_nlist hR (ex_simple hR (sayt_string hR))) <|
    ex_elem (ex_ptr (xsay_taskTrigger n hR)) <|
    ex_elem (ex_nlist hR (xsay_taskStep n hR)) <|
    ex_elem (ex_nlist hR (xsay_taskInput n hR)) <|
    ex_elem (ex_nlist hR (xsay_taskOutput n hR)) <|
    ex_elem (ex_plain (ex_simple hR (sayt_string hR))) <|
    ex_elem (ex_plain (ex_simple hR (sayt_string hR))) <|
    ex_elem (ex_nlist hR (xsay_taskWorkspace n hR)) <|
    ex_elem (ex_nlist hR (xsay_dependency n hR)) <|
    ex_nil hR)

theorem xsay_workflow (n : Nat) (hR : Rules P Q) : ∃ I, SayX P Q n X.workflow I :=
  ex_struct hR (fun _ => rfl) (Nat.le_of_ble_eq_true rfl) (
    ex_attr (sayt_string hR) <|
    ex_elem (ex_plain (ex_simple hR (sayt_string hR))) <|
    ex_elem (ex_plain (ex_simple hR (sayt_string hR))) <|
    ex_elem (ex_plain (ex_simple hR (sayt_string hR))) <|
    ex_elem (ex_nlist hR (xsay_resourceReferenceChoice n hR)) <|
    ex_elem (ex_nlist hR (xsay_task n hR)) <|
    ex_elem (ex_nlist hR (xsay_dependency n hR)) <|
    ex_elem (ex_nlist hR (ex_simple hR (sayt_string hR))) <|
    ex_elem (ex_ptr (xsay_taskTrigger n hR)) <|
    ex_elem (ex_nlist hR (xsay_taskStep n hR)) <|
    ex_elem (ex_nlist hR (xsay_taskInput n hR)) <|
    ex_elem (ex_nlist hR (xsay_taskOutput n hR)) <|
    ex_elem (ex_plain (ex_simple hR (sayt_string hR))) <|
    ex_elem (ex_plain (ex_simple hR (sayt_string hR))) <|
    ex_elem (ex_nlist hR (xsay_taskWorkspace n hR)) <|
    ex_elem (ex_nlist hR (xsay_dependency n hR)) <|
    ex_elem (ex_nlist hR (xsay_property n hR)) <|
    ex_nil hR)

theorem xsay_formula (n : Nat) (hR : Rules P Q) : ∃ I, SayX P Q n X.formula I :=
  ex_struct hR (fun _ => rfl) (Nat.le_of_ble_eq_true rfl) (
    ex_attr (sayt_string hR) <|
    ex_elem (ex_nlist hR (xsay_component n hR)) <|
    ex_elem (ex_nlist hR (xsay_service n hR)) <|
    ex_elem (ex_nlist hR (xsay_workflow n hR)) <|
    ex_elem (ex_nlist hR (xsay_property n hR)) <|
    ex_nil hR)

theorem xsay_lifecycle (n : Nat) (hR : Rules P Q) : ∃ I, SayX P Q n X.lifecycle I :=
  ex_struct hR (fun _ => rfl) (Nat.le_of_ble_eq_true rfl) (
    ex_elem (ex_plain (ex_simple hR (sayt_string hR))) <|
    ex_elem (ex_plain (ex_simple hR (sayt_string hR))) <|
    ex_elem (ex_plain (ex_simple hR (sayt_string hR))) <|
    ex_nil hR)

theorem xsay_tool (n : Nat) (hR : Rules P Q) : ∃ I, SayX P Q n X.tool I :=
  ex_struct hR (fun _ => rfl) (Nat.le_of_ble_eq_true rfl) (
    ex_elem (ex_plain (ex_simple hR (sayt_string hR))) <|
    ex_elem (ex_plain (ex_simple hR (sayt_string hR))) <|
    ex_elem (ex_plain (ex_simple hR (sayt_string hR))) <|
    ex_elem (ex_nlist hR (xsay_hash n hR)) <|
    ex_elem (ex_nlist hR (xsay_externalReference n hR)) <|
    ex_nil hR)

theorem xsay_toolsChoice (n : Nat) (hR : Rules P Q) : ∃ I, SayX P Q n X.toolsChoice I := by
  obtain ⟨T, hT⟩ := xsay_tool n hR
  obtain ⟨C, hC⟩ := xsay_component n hR
  obtain ⟨S, hS⟩ := xsay_service n hR
  have h1 : SayFs P Q n X.toolsChoiceFields _ :=
    sayf_elem (saye_list hT) (sayf_elem (saye_nlist hR hC) (sayf_elem (saye_nlist hR hS) (sayf_nil hR)))
  have h2 : SayFs P Q n X.toolsChoiceRaw _ := sayf_elem (saye_list hC) (sayf_elem (saye_list hS) (sayf_nil hR))
  refine ⟨fun v => (∀ a ∈ v.tools.elems, T a) ∧ (∀ a ∈ v.components.elems, C a) ∧ (∀ a ∈ v.services.elems, S a),
    ⟨none_in, none_in, none_in⟩, fun m v x hv he => ?_, fun x a b hx hr ha hd => ?_⟩
  · simp only [X.toolsChoice] at he
    split at he
    · cases he
    · split at he
      · exact h1.enc (Nat.le_of_ble_eq_true rfl) ⟨hv.1, none_in, none_in, trivial⟩ he
      · split at he
        · exact h1.enc (Nat.le_of_ble_eq_true rfl) ⟨none_in, hv.2.1, hv.2.2, trivial⟩ he
        · cases he
  · simp only [X.toolsChoice] at hd
    split at hd
    · cases hd
    · rename_i ts cs ss hst
      have hk := decAll_keeps (G := fun k => k.depth < n ∧ Heard P k)
        (I := fun st : List Tool × List Component × List Service =>
          (∀ a ∈ st.1, T a) ∧ (∀ a ∈ st.2.1, C a) ∧ (∀ a ∈ st.2.2, S a)) (fun y a b hy ha hd => ?_) _ _ _
        (fun k hk => ⟨kid_depth' hx hk, hr.kid hk⟩) ⟨none_in, none_in, none_in⟩ hst
      · split at hd
        · cases hd
        · split at hd
          · cases hd
            simpa only [ofList_elems] using hk
          · cases hd; exact ha
      · cases y with
        | text s => cases hd; exact ha
        | elem name as ks =>
          simp only [X.toolsChoiceStep] at hd
          split at hd
          · rw [Option.map_eq_some_iff] at hd
            obtain ⟨p, hp, rfl⟩ := hd
            refine ⟨fun i hi => ?_, ha.2⟩
            rcases List.mem_append.1 hi with hi | hi
            · exact ha.1 i hi
            · simp only [List.mem_singleton] at hi
              subst hi
              exact hT.dec _ _ _ hy.1 hy.2 hT.zero hp
          · split at hd
            · rw [Option.map_eq_some_iff] at hd
              obtain ⟨p, hp, rfl⟩ := hd
              have hk := h2.dec hR (Nat.le_of_lt hy.1) hy.2 h2.zero hp
              split
              · exact ⟨ha.1, hk.1, ha.2.2⟩
              · exact ha
            · split at hd
              · rw [Option.map_eq_some_iff] at hd
                obtain ⟨p, hp, rfl⟩ := hd
                have hk := h2.dec hR (Nat.le_of_lt hy.1) hy.2 h2.zero hp
                split
                · exact ⟨ha.1, ha.2.1, hk.2.1⟩
                · exact ha
              · cases hd


theorem xsay_distributionConstraints (n : Nat) (hR : Rules P Q) : ∃ I, SayX P Q n X.distributionConstraints I :=
  ex_struct hR (fun _ => rfl) (Nat.le_of_ble_eq_true rfl) (
    ex_elem (ex_plain (ex_simple hR (sayt_string hR))) <|
    ex_nil hR)

theorem xsay_metadata (n : Nat) (hR : Rules P Q) : ∃ I, SayX P Q n X.metadata I :=
  ex_struct hR (fun _ => rfl) (Nat.le_of_ble_eq_true rfl) (
    ex_elem (ex_plain (ex_simple hR (sayt_string hR))) <|
    ex_elem (ex_nlist hR (xsay_lifecycle n hR)) <|
    ex_elem (ex_ptr (xsay_toolsChoice n hR)) <|
    ex_elem (ex_nlist hR (xsay_organizationalContact n hR)) <|
    ex_elem (ex_ptr (xsay_component n hR)) <|
    ex_elem (ex_ptr (xsay_organizationalEntity n hR)) <|
    ex_elem (ex_ptr (xsay_organizationalEntity n hR)) <|
    ex_elem (ex_ptr (xsay_organizationalEntity n hR)) <|
    ex_elem (ex_slice rfl (xsay_licenses n hR)) <|
    ex_elem (ex_nlist hR (xsay_property n hR)) <|
    ex_elem (ex_ptr (xsay_distributionConstraints n hR)) <|
    ex_nil hR)

theorem xsay_credits (n : Nat) (hR : Rules P Q) : ∃ I, SayX P Q n X.credits I :=
  ex_struct hR (fun _ => rfl) (Nat.le_of_ble_eq_true rfl) (
    ex_elem (ex_nlist hR (xsay_organizationalEntity n hR)) <|
    ex_elem (ex_nlist hR (xsay_organizationalContact n hR)) <|
    ex_nil hR)

theorem xsay_proofOfConcept (n : Nat) (hR : Rules P Q) : ∃ I, SayX P Q n X.proofOfConcept I :=
  ex_struct hR (fun _ => rfl) (Nat.le_of_ble_eq_true rfl) (
    ex_elem (ex_plain (ex_simple hR (sayt_string hR))) <|
    ex_elem (ex_plain (ex_simple hR (sayt_string hR))) <|
    ex_elem (ex_nlist hR (xsay_attachedText n hR)) <|
    ex_nil hR)

theorem xsay_vulnerabilityAnalysis (n : Nat) (hR : Rules P Q) : ∃ I, SayX P Q n X.vulnerabilityAnalysis I :=
  ex_struct hR (fun _ => rfl) (Nat.le_of_ble_eq_true rfl) (
    ex_elem (ex_plain (ex_simple hR (sayt_string hR))) <|
    ex_elem (ex_plain (ex_simple hR (sayt_string hR))) <|
    ex_elem (ex_nlist hR (ex_simple hR (sayt_string hR))) <|
    ex_elem (ex_plain (ex_simple hR (sayt_string hR))) <|
    ex_elem (ex_plain (ex_simple hR (sayt_string hR))) <|
    ex_elem (ex_plain (ex_simple hR (sayt_string hR))) <|
    ex_nil hR)

theorem xsay_vulnerabilityRating (n : Nat) (hR : Rules P Q) : ∃ I, SayX P Q n X.vulnerabilityRating I :=
  ex_struct hR (fun _ => rfl) (Nat.le_of_ble_eq_true rfl) (
    ex_elem (ex_ptr (xsay_source n hR)) <|
    ex_elem (ex_ptr (ex_simple hR (sayt_f64 hR))) <|
    ex_elem (ex_plain (ex_simple hR (sayt_string hR))) <|
    ex_elem (ex_plain (ex_simple hR (sayt_string hR))) <|
    ex_elem (ex_plain (ex_simple hR (sayt_string hR))) <|
    ex_elem (ex_plain (ex_simple hR (sayt_string hR))) <|
    ex_nil hR)

theorem xsay_vulnerabilityReference (n : Nat) (hR : Rules P Q) : ∃ I, SayX P Q n X.vulnerabilityReference I :=
  ex_struct hR (fun _ => rfl) (Nat.le_of_ble_eq_true rfl) (
    ex_elem (ex_plain (ex_simple hR (sayt_string hR))) <|
    ex_elem (ex_ptr (xsay_source n hR)) <|
    ex_nil hR)

theorem xsay_vulnerability (n : Nat) (hR : Rules P Q) : ∃ I, SayX P Q n X.vulnerability I :=
  ex_struct hR (fun _ => rfl) (Nat.le_of_ble_eq_true rfl) (
    ex_attr (sayt_string hR) <|
    ex_elem (ex_plain (ex_simple hR (sayt_string hR))) <|
    ex_elem (ex_ptr (xsay_source n hR)) <|
    ex_elem (ex_nlist hR (xsay_vulnerabilityReference n hR)) <|
    ex_elem (ex_nlist hR (xsay_vulnerabilityRating n hR)) <|
    ex_elem (ex_nlist hR (ex_simple hR (sayt_int hR))) <|
    ex_elem (ex_plain (ex_simple hR (sayt_string hR))) <|
    ex_elem (ex_plain (ex_simple hR (sayt_string hR))) <|
    ex_elem (ex_plain (ex_simple hR (sayt_string hR))) <|
    ex_elem (ex_plain (ex_simple hR (sayt_string hR))) <|
    ex_elem (ex_ptr (xsay_proofOfConcept n hR)) <|
    ex_elem (ex_nlist hR (xsay_advisory n hR)) <|
    ex_elem (ex_plain (ex_simple hR (sayt_string hR))) <|
    ex_elem (ex_plain (ex_simple hR (sayt_string hR))) <|
    ex_elem (ex_plain (ex_simple hR (sayt_string hR))) <|
    ex_elem (ex_plain (ex_simple hR (sayt_string hR))) <|
    ex_elem (ex_ptr (xsay_credits n hR)) <|
    ex_elem (ex_ptr (xsay_toolsChoice n hR)) <|
    ex_elem (ex_ptr (xsay_vulnerabilityAnalysis n hR)) <|
    ex_elem (ex_nlist hR (xsay_affects n hR)) <|
    ex_elem (ex_nlist hR (xsay_property n hR)) <|
    ex_nil hR)

theorem xsay_citation (n : Nat) (hR : Rules P Q) : ∃ I, SayX P Q n X.citation I :=
  ex_struct hR (fun _ => rfl) (Nat.le_of_ble_eq_true rfl) (
    ex_attr (sayt_string hR) <|
    ex_elem (ex_nlist hR (ex_simple hR (sayt_string hR))) <|
    ex_elem (ex_nlist hR (ex_simple hR (sayt_string hR))) <|
    ex_elem (ex_plain (ex_simple hR (sayt_string hR))) <|
    ex_elem (ex_ptr ⟨_, sayx_bomReference hR⟩) <|
    ex_elem (ex_plain (ex_simple hR (sayt_string hR))) <|
    ex_elem (ex_plain (ex_simple hR (sayt_string hR))) <|
    ex_skip <|
    ex_nil hR)

theorem xsay_bomTail (n : Nat) (hR : Rules P Q) : ∃ F, X.bomFields =
    .skip {} (.attr "xmlns" false XText.string (.skip "" (.skip "" (.skip 0 F)))) ∧ ∃ K, SayFs P Q n F K :=
  ⟨_, rfl, ex_attr (sayt_string hR) <|
    ex_attr (sayt_int hR) <|
    ex_elem (ex_ptr (xsay_metadata n hR)) <|
    ex_elem (ex_nlist hR (xsay_component n hR)) <|
    ex_elem (ex_nlist hR (xsay_service n hR)) <|
    ex_elem (ex_nlist hR (xsay_externalReference n hR)) <|
    ex_elem (ex_nlist hR (xsay_dependency n hR)) <|
    ex_elem (ex_nlist hR (xsay_composition n hR)) <|
    ex_elem (ex_nlist hR (xsay_property n hR)) <|
    ex_elem (ex_nlist hR (xsay_vulnerability n hR)) <|
    ex_elem (ex_nlist hR (xsay_annotation n hR)) <|
    ex_elem (ex_nlist hR (xsay_formula n hR)) <|
    ex_elem (ex_ptr (xsay_declarations n hR)) <|
    ex_elem (ex_ptr (xsay_definitions n hR)) <|
    ex_elem (ex_nlist hR (xsay_citation n hR)) <|
    ex_skip <|
    ex_nil hR⟩

/-- The invariant of a BOM has nothing to do with the name of the root element and the version. -/
theorem xsay_bom (n : Nat) (hR : Rules P Q) : ∃ I : BOM → Prop, SayX P Q n X.bom I ∧
    ∀ (b : BOM) (m : XMLName) (v : Int), I b → I { b with xmlName := m, specVersion := v } := by
  obtain ⟨F, hF, K, h⟩ := xsay_bomTail n hR
  have h1 : SayFs P Q n X.bomFields (fun b => Q (sanitize b.2.1) ∧ K b.2.2.2.2.2) :=
    hF ▸ sayf_skip (sayf_attr (sayt_string hR) (sayf_skip (sayf_skip (sayf_skip h))))
  exact ⟨_, sayx_struct hR (fun _ => rfl) (Nat.le_of_ble_eq_true rfl) h1, fun b m v hb => hb⟩


end Verif
