import Verif.Spec.XmlSays
import Verif.Xml.StructLaws
import Verif.Xml.Read

/-!
# What is written was read

GENERATED by `tools/gen_xsays.py`; do not edit by hand.  `SayX P Q n c I`: if everything said in the elements less than
`n` deep that the codec `c` reads, one into the other, meets `P`, the values read meet `I`, and what is said in the
elements that `c` writes for them meets `Q`.
-/

namespace Verif

open Xml (sanitize trim textOf textKids)

set_option linter.unusedSectionVars false
set_option linter.unusedSimpArgs false
set_option linter.unusedVariables false

variable [XFloatIO]

/-- What `P`, on words that are read, and `Q`, on words that are written, have to do with each other. -/
structure Rules (P Q : String → Prop) : Prop where
  nothing : P ""
  plain : ∀ t, NoText t → Q t
  text : ∀ s, P s → Q (sanitize s)
  trimmed : ∀ s, P s → Q (sanitize (trim s))

/-- Everything said in `x` meets `P`. -/
def Heard (P : String → Prop) (x : Xml) : Prop := ∀ s, x.Says s → P s
/-- `x` is an element, and everything said in it meets `Q`. -/
def Wrote (Q : String → Prop) (x : Xml) : Prop := (∃ n as ks, x = .elem n as ks) ∧ Heard Q x

variable {P Q : String → Prop} {n : Nat}

theorem Heard.kid {x k : Xml} (h : Heard P x) (hk : k ∈ x.kids) : Heard P k := by
  cases x with
  | text s => cases hk
  | elem m as ks => exact fun s hs => h s (.kid hk hs)
theorem Heard.attr {x : Xml} (h : Heard P x) {kv : String × String} (hk : kv ∈ x.attrs) : P kv.2 := by
  cases x with
  | text s => cases hk
  | elem m as ks => exact h _ (.attr (k := kv.1) hk)
theorem Heard.text (hR : Rules P Q) {x : Xml} (h : Heard P x) : P (textOf x.kids) := by
  cases x with
  | text s => exact hR.nothing
  | elem m as ks => exact h _ .text
theorem kid_depth {x k : Xml} (hx : x.depth ≤ n) (hk : k ∈ x.kids) : k.depth < n := by
  cases x with
  | text s => cases hk
  | elem m as ks => have := depth_kid (n := m) (as := as) (ks := ks) hk; omega
theorem kid_depth' {x k : Xml} (hx : x.depth < n) (hk : k ∈ x.kids) : k.depth < n := kid_depth (by omega) hk

theorem heard_elem {m : String} {as : List (String × String)} {ks : List Xml} (h1 : ∀ kv ∈ as, Q kv.2)
    (h2 : ∀ k ∈ ks, Heard Q k) (h3 : Q (textOf ks)) : Wrote Q (.elem m as ks) := by
  refine ⟨⟨_, _, _, rfl⟩, fun s hs => ?_⟩
  cases hs with
  | attr h => exact h1 _ h
  | text => exact h3
  | kid h hs => exact h2 _ h _ hs

theorem textOf_wrote : ∀ {ks : List Xml}, (∀ k ∈ ks, Wrote Q k) → textOf ks = ""
  | [], _ => rfl
  | k :: ks, h => by
    obtain ⟨⟨m, as, ls, rfl⟩, _⟩ := h k List.mem_cons_self
    exact textOf_wrote (ks := ks) fun i hi => h i (List.mem_cons_of_mem _ hi)

theorem none_in {α : Type} {p : α → Prop} : ∀ a ∈ ([] : List α), p a := nofun
theorem not_one {α : Type} {p : α → Prop} : ∀ a ∈ (none : Option α), p a := nofun
theorem Rules.blank (hR : Rules P Q) : Q "" := hR.plain _ (.inr (.inr (by simp)))
theorem Rules.zero (hR : Rules P Q) : Q (sanitize "") := hR.text _ hR.nothing

/-- An element without character data of its own. -/
theorem wrote_elem (hR : Rules P Q) {m : String} {as : List (String × String)} {ks : List Xml} (h1 : ∀ kv ∈ as, Q kv.2)
    (h2 : ∀ k ∈ ks, Wrote Q k) : Wrote Q (.elem m as ks) :=
  heard_elem h1 (fun k hk => (h2 k hk).2) (by rw [textOf_wrote h2]; exact hR.blank)
theorem heard_textKids {t : String} : ∀ k ∈ textKids t, Heard Q k := by
  intro k hk
  unfold textKids at hk
  split at hk
  · cases hk
  · simp only [List.mem_singleton] at hk
    subst hk
    intro s hs
    cases hs
theorem wrote_text {m t : String} {as : List (String × String)} (h1 : ∀ kv ∈ as, Q kv.2) (h : Q t) :
    Wrote Q (.elem m as (textKids t)) :=
  heard_elem h1 heard_textKids (by rw [textOf_textKids]; exact h)

/-- See the header; for types written as text. -/
structure SayT {α : Type} (P Q : String → Prop) (c : XText α) (I : α → Prop) : Prop where
  zero : I c.zero
  enc : ∀ a, I a → Q (c.enc a)
  dec : ∀ s a, P s → c.dec s = some a → I a
/-- See the header. -/
structure SayX {α : Type} (P Q : String → Prop) (n : Nat) (c : XCodec α) (I : α → Prop) : Prop where
  zero : I c.zero
  enc : ∀ m a x, I a → c.enc m a = some (some x) → Wrote Q x
  dec : ∀ x a b, x.depth < n → Heard P x → I a → c.dec x a = some b → I b
/-- The same for a field. -/
structure SayE {α : Type} (P Q : String → Prop) (n : Nat) (f : XField α) (I : α → Prop) : Prop where
  zero : I f.zero
  enc : ∀ a ks, I a → f.enc a = some ks → ∀ k ∈ ks, Wrote Q k
  dec : ∀ x a b, x.depth < n → Heard P x → I a → f.dec x a = some b → I b
/-- The same for the fields of a struct. -/
structure SayFs {β : Type} (P Q : String → Prop) (n : Nat) (F : XFields β) (K : β → Prop) : Prop where
  zero : K F.zero
  attrs : ∀ b, K b → ∀ kv ∈ F.encAttrs b, Q kv.2
  kids : ∀ b ks, K b → F.encKids b = some ks →
    (∀ k ∈ ks, Heard Q k) ∧ (F.texts = 0 → textOf ks = "") ∧ (F.texts ≤ 1 → Q (textOf ks))
  setAttr : ∀ kv b b', P kv.2 → K b → F.setAttr kv b = some b' → K b'
  setKid : ∀ x b b', x.depth < n → Heard P x → K b → F.setKid x b = some b' → K b'
  setText : ∀ s b, P s → K b → K (F.setText s b)

theorem sayt_string (hR : Rules P Q) : SayT P Q XText.string (fun s => Q (sanitize s)) :=
  ⟨hR.zero, fun _ h => h, fun s a hs h => by cases h; exact hR.text _ hs⟩
theorem sayt_bomReference (hR : Rules P Q) : SayT P Q XText.bomReference (fun s => Q (sanitize s.val)) :=
  ⟨hR.zero, fun _ h => h, fun s a hs h => by cases h; exact hR.text _ hs⟩
theorem sayt_mute {α : Type} {c : XText α} (h : ∀ a, Q (c.enc a)) : SayT P Q c (fun _ => True) :=
  ⟨trivial, fun a _ => h a, fun _ _ _ _ => trivial⟩
theorem noText_chars {t : String} (h : ∀ c ∈ t.toList, isFloatChar c = true) : NoText t := by
  refine .inr (.inr fun c hc => ?_)
  have := h c hc
  simp only [isFloatChar, Bool.or_eq_true, decide_eq_true_eq, digitChar_iff_range] at this
  exact this
theorem sayt_bool (hR : Rules P Q) : SayT P Q XText.bool (fun _ => True) :=
  sayt_mute fun a => by cases a <;> exact hR.plain _ (by simp [NoText, XText.bool])
theorem sayt_int (hR : Rules P Q) : SayT P Q XText.int (fun _ => True) :=
  sayt_mute fun a => hR.plain _ (noText_chars fun c hc => by
    simp only [XText.int, String.toList_ofList] at hc
    rcases intChars_chars a c hc with h | rfl
    · simp [isFloatChar, h]
    · decide)
theorem sayt_f32 (hR : Rules P Q) : SayT P Q XText.f32 (fun _ => True) :=
  sayt_mute fun a => hR.plain _ (noText_chars (XFloatIO.fmt32_chars a))
theorem sayt_f64 (hR : Rules P Q) : SayT P Q XText.f64 (fun _ => True) :=
  sayt_mute fun a => hR.plain _ (noText_chars (XFloatIO.fmt64_chars a))

theorem sayx_simple {α : Type} {c : XText α} {I : α → Prop} (hR : Rules P Q) (h : SayT P Q c I) :
    SayX P Q n (XCodec.simple c) I := by
  refine ⟨h.zero, fun m a x ha he => ?_, fun x a b _ hx _ hd => h.dec _ _ (hx.text hR) hd⟩
  simp only [XCodec.simple, Option.some.injEq] at he
  subst he
  exact wrote_text (by simp) (h.enc a ha)

theorem sayx_toList {α : Type} {c : XCodec α} {I : α → Prop} (h : SayX P Q n c I) {m : String} {a : α} {ks : List Xml}
    (ha : I a) (he : (c.enc m a).map (·.toList) = some ks) : ∀ k ∈ ks, Wrote Q k := by
  rw [Option.map_eq_some_iff] at he
  obtain ⟨o, ho, rfl⟩ := he
  intro k hk
  cases o with
  | none => cases hk
  | some x =>
    simp only [Option.toList_some, List.mem_singleton] at hk
    subst hk
    exact h.enc m a _ ha ho

theorem decAll_keeps {α : Type} {f : Xml → α → Option α} {G : Xml → Prop} {I : α → Prop}
    (h : ∀ x a b, G x → I a → f x a = some b → I b) : ∀ (xs : List Xml) (a b : α), (∀ x ∈ xs, G x) → I a →
    XField.decAll f xs a = some b → I b
  | [], a, b, _, ha, e => by cases e; exact ha
  | x :: xs, a, b, hx, ha, e => by
    simp only [XField.decAll] at e
    cases hf : f x a with
    | none => rw [hf] at e; cases e
    | some a' =>
      rw [hf] at e
      exact decAll_keeps h xs a' b (fun y hy => hx y (List.mem_cons_of_mem _ hy))
        (h _ _ _ (hx x List.mem_cons_self) ha hf) e

theorem saye_plain {α : Type} {c : XCodec α} {I : α → Prop} {m : String} {oe : Bool} (h : SayX P Q n c I) :
    SayE P Q n (.plain m oe c) I := by
  refine ⟨h.zero, fun a ks ha he => ?_, h.dec⟩
  simp only [XField.plain] at he
  split at he
  · cases he; simp
  · exact sayx_toList h ha he

theorem saye_ptr {α : Type} {c : XCodec α} {I : α → Prop} {m : String} (h : SayX P Q n c I) :
    SayE P Q n (.ptr m c) (fun o => ∀ a ∈ o, I a) := by
  refine ⟨nofun, fun a ks ha he => ?_, fun x a b hx hr ha hd => ?_⟩
  · cases a with
    | none => cases he; simp
    | some a => exact sayx_toList h (ha a rfl) he
  · simp only [XField.ptr, Option.map_eq_some_iff] at hd
    obtain ⟨b', hd, rfl⟩ := hd
    rintro _ ⟨⟩
    refine h.dec x _ _ hx hr ?_ hd
    cases a with
    | none => exact h.zero
    | some a => exact ha a rfl

theorem sayx_encList {α : Type} {c : XCodec α} {I : α → Prop} {m : String} {oe : Bool} (h : SayX P Q n c I) :
    ∀ (as : List α) (ks : List Xml), (∀ a ∈ as, I a) → XField.encList m oe c as = some ks → ∀ k ∈ ks, Wrote Q k
  | [], ks, _, he => by cases he; simp
  | a :: as, ks, ha, he => by
    have ih := sayx_encList (m := m) (oe := oe) h as
    simp only [XField.encList] at he
    split at he
    · exact ih ks (fun b hb => ha b (List.mem_cons_of_mem _ hb)) he
    · split at he
      · cases he
      · rename_i o ho
        rw [Option.map_eq_some_iff] at he
        obtain ⟨ls, hl, rfl⟩ := he
        intro k hk
        rcases List.mem_append.1 hk with hk | hk
        · exact sayx_toList (m := m) h (ha a List.mem_cons_self) (by rw [ho]; rfl) k hk
        · exact ih ls (fun b hb => ha b (List.mem_cons_of_mem _ hb)) hl k hk

theorem push_keeps {α : Type} {c : XCodec α} {I : α → Prop} (h : SayX P Q n c I) {x : Xml} {a b : PSlice α}
    (hx : x.depth < n) (hr : Heard P x) (ha : ∀ y ∈ a.elems, I y) (hd : (c.dec x c.zero).map (XField.push a) = some b) :
    ∀ y ∈ b.elems, I y := by
  rw [Option.map_eq_some_iff] at hd
  obtain ⟨b', hd, rfl⟩ := hd
  intro y hy
  simp only [XField.push, PSlice.elems, List.mem_append, List.mem_singleton] at hy
  rcases hy with hy | rfl
  · exact ha y hy
  · exact h.dec x _ _ hx hr h.zero hd

theorem saye_list {α : Type} {c : XCodec α} {I : α → Prop} {m : String} {oe : Bool} (h : SayX P Q n c I) :
    SayE P Q n (.list m oe c) (fun p => ∀ a ∈ p.elems, I a) :=
  ⟨nofun, fun a ks ha he => sayx_encList h _ ks ha he, fun x a b hx hr ha hd => push_keeps h hx hr ha hd⟩

theorem saye_nlist {α : Type} {c : XCodec α} {I : α → Prop} {p m : String} {oe : Bool} (hR : Rules P Q) (h : SayX P Q n c I) :
    SayE P Q n (.nlist p m oe c) (fun p => ∀ a ∈ p.elems, I a) := by
  refine ⟨nofun, fun a ks ha he => ?_, fun x a b hx hr ha hd => ?_⟩
  · have key : ∀ ls, (XField.encList m oe c a.elems).map (fun ks => [Xml.elem p [] ks]) = some ls → ∀ k ∈ ls, Wrote Q k := by
      intro ls hl
      rw [Option.map_eq_some_iff] at hl
      obtain ⟨es, hes, rfl⟩ := hl
      intro k hk
      simp only [List.mem_singleton] at hk
      subst hk
      exact wrote_elem hR (by simp) (sayx_encList h _ _ ha hes)
    cases a with
    | nil => cases he; simp
    | nilSlice => exact key ks he
    | list l => exact key ks he
  · refine decAll_keeps (G := fun k => k.depth < n ∧ Heard P k) (I := fun p => ∀ a ∈ p.elems, I a) (fun y a b hy ha hd => ?_) _ _ _
      (fun k hk => ⟨kid_depth' hx hk, hr.kid hk⟩) ha hd
    simp only [XField.decInner] at hd
    split at hd
    · exact push_keeps h hy.1 hy.2 ha hd
    · cases hd; exact ha

theorem saye_nptr {α : Type} {c : XCodec α} {I : α → Prop} {p m : String} (hR : Rules P Q) (h : SayX P Q n c I) :
    SayE P Q n (.nptr p m c) (fun o => ∀ a ∈ o, I a) := by
  refine ⟨nofun, fun a ks ha he => ?_, fun x a b hx hr ha hd => ?_⟩
  · cases a with
    | none => cases he; simp
    | some a =>
      simp only [XField.nptr, Option.map_eq_some_iff] at he
      obtain ⟨o, ho, rfl⟩ := he
      intro k hk
      simp only [List.mem_singleton] at hk
      subst hk
      exact wrote_elem hR (by simp) (sayx_toList (m := m) h (ha a rfl) (by rw [ho]; rfl))
  · refine decAll_keeps (G := fun k => k.depth < n ∧ Heard P k) (I := fun o => ∀ a ∈ o, I a) (fun y a b hy ha hd => ?_) _ _ _
      (fun k hk => ⟨kid_depth' hx hk, hr.kid hk⟩) ha hd
    split at hd
    · exact (saye_ptr (m := m) h).dec y a b hy.1 hy.2 ha hd
    · cases hd; exact ha

theorem saye_slice {α : Type} {c : XCodec (List α)} {I : List α → Prop} {m : String} (h : SayX P Q n c I) (hz : I []) :
    SayE P Q n (.slice m c) (fun p => I p.elems) := by
  refine ⟨hz, fun a ks ha he => ?_, fun x a b hx hr ha hd => ?_⟩
  · cases a with
    | nil => cases he; simp
    | nilSlice => exact sayx_toList h ha he
    | list l => exact sayx_toList h ha he
  · simp only [XField.slice, Option.map_eq_some_iff] at hd
    obtain ⟨b', hd, rfl⟩ := hd
    exact h.dec x _ _ hx hr ha hd

theorem sayf_nil (hR : Rules P Q) : SayFs P Q n .nil (fun _ => True) :=
  ⟨trivial, by simp [XFields.encAttrs], fun b ks _ h => by cases h; exact ⟨by simp, fun _ => rfl, fun _ => hR.blank⟩,
    fun _ _ _ _ _ _ => trivial, fun _ _ _ _ _ _ _ => trivial, fun _ _ _ _ => trivial⟩

theorem sayf_skip {α β : Type} {z : α} {F : XFields β} {K : β → Prop} (h : SayFs P Q n F K) :
    SayFs P Q n (.skip z F) (fun b => K b.2) := by
  refine ⟨h.zero, fun b hb => h.attrs _ hb, fun b ks hb => h.kids _ ks hb, fun kv b b' hp hb hd => ?_,
    fun x b b' hx hr hb hd => ?_, fun s b hs hb => h.setText s _ hs hb⟩
  · simp only [XFields.setAttr, Option.map_eq_some_iff] at hd
    obtain ⟨b', hd, rfl⟩ := hd
    exact h.setAttr _ _ _ hp hb hd
  · simp only [XFields.setKid, Option.map_eq_some_iff] at hd
    obtain ⟨b', hd, rfl⟩ := hd
    exact h.setKid _ _ _ hx hr hb hd

theorem sayf_attr {α β : Type} {m : String} {oe : Bool} {c : XText α} {I : α → Prop} {F : XFields β} {K : β → Prop}
    (hc : SayT P Q c I) (h : SayFs P Q n F K) : SayFs P Q n (.attr m oe c F) (fun b => I b.1 ∧ K b.2) := by
  refine ⟨⟨hc.zero, h.zero⟩, fun b hb kv hk => ?_, fun b ks hb => h.kids _ ks hb.2, fun kv b b' hp hb hd => ?_,
    fun x b b' hx hr hb hd => ?_, fun s b hs hb => ⟨hb.1, h.setText s _ hs hb.2⟩⟩
  · simp only [XFields.encAttrs] at hk
    split at hk
    · exact h.attrs _ hb.2 kv hk
    · cases hk with
      | head => exact hc.enc _ hb.1
      | tail _ hk => exact h.attrs _ hb.2 kv hk
  · simp only [XFields.setAttr] at hd
    split at hd <;> rw [Option.map_eq_some_iff] at hd <;> obtain ⟨b', hd, rfl⟩ := hd
    · exact ⟨hc.dec _ _ hp hd, hb.2⟩
    · exact ⟨hb.1, h.setAttr _ _ _ hp hb.2 hd⟩
  · simp only [XFields.setKid, Option.map_eq_some_iff] at hd
    obtain ⟨b', hd, rfl⟩ := hd
    exact ⟨hb.1, h.setKid _ _ _ hx hr hb.2 hd⟩

theorem sayf_attrPtr {α β : Type} {m : String} {c : XText α} {I : α → Prop} {F : XFields β} {K : β → Prop}
    (hc : SayT P Q c I) (h : SayFs P Q n F K) : SayFs P Q n (.attrPtr m c F) (fun b => (∀ a ∈ b.1, I a) ∧ K b.2) := by
  refine ⟨⟨nofun, h.zero⟩, fun b hb kv hk => ?_, fun b ks hb => h.kids _ ks hb.2, fun kv b b' hp hb hd => ?_,
    fun x b b' hx hr hb hd => ?_, fun s b hs hb => ⟨hb.1, h.setText s _ hs hb.2⟩⟩
  · simp only [XFields.encAttrs] at hk
    split at hk
    · exact h.attrs _ hb.2 kv hk
    · rename_i a ha
      cases hk with
      | head => exact hc.enc _ (hb.1 a ha)
      | tail _ hk => exact h.attrs _ hb.2 kv hk
  · simp only [XFields.setAttr] at hd
    split at hd <;> rw [Option.map_eq_some_iff] at hd <;> obtain ⟨b', hd, rfl⟩ := hd
    · exact ⟨by rintro _ ⟨⟩; exact hc.dec _ _ hp hd, hb.2⟩
    · exact ⟨hb.1, h.setAttr _ _ _ hp hb.2 hd⟩
  · simp only [XFields.setKid, Option.map_eq_some_iff] at hd
    obtain ⟨b', hd, rfl⟩ := hd
    exact ⟨hb.1, h.setKid _ _ _ hx hr hb.2 hd⟩

theorem sayf_chardata {β : Type} {F : XFields β} {K : β → Prop} (hR : Rules P Q) (h : SayFs P Q n F K) :
    SayFs P Q n (.chardata F) (fun b => Q (sanitize b.1) ∧ K b.2) := by
  refine ⟨⟨hR.zero, h.zero⟩, fun b hb => h.attrs _ hb.2, fun b ks hb he => ?_, fun kv b b' hp hb hd => ?_,
    fun x b b' hx hr hb hd => ?_, fun s b hs hb => ⟨hR.text s hs, hb.2⟩⟩
  · simp only [XFields.encKids, Option.map_eq_some_iff] at he
    obtain ⟨ls, hl, rfl⟩ := he
    have := h.kids _ ls hb.2 hl
    refine ⟨fun k hk => ?_, nofun, fun ht => ?_⟩
    · rcases List.mem_append.1 hk with hk | hk
      · exact heard_textKids k hk
      · exact this.1 k hk
    · simp only [XFields.texts] at ht
      rw [textOf_append, textOf_textKids, this.2.1 (by omega), String.append_empty]
      exact hb.1
  · simp only [XFields.setAttr, Option.map_eq_some_iff] at hd
    obtain ⟨b', hd, rfl⟩ := hd
    exact ⟨hb.1, h.setAttr _ _ _ hp hb.2 hd⟩
  · simp only [XFields.setKid, Option.map_eq_some_iff] at hd
    obtain ⟨b', hd, rfl⟩ := hd
    exact ⟨hb.1, h.setKid _ _ _ hx hr hb.2 hd⟩

theorem sayf_elem {α β : Type} {f : XField α} {I : α → Prop} {F : XFields β} {K : β → Prop}
    (hf : SayE P Q n f I) (h : SayFs P Q n F K) : SayFs P Q n (.elem f F) (fun b => I b.1 ∧ K b.2) := by
  refine ⟨⟨hf.zero, h.zero⟩, fun b hb => h.attrs _ hb.2, fun b ks hb he => ?_, fun kv b b' hp hb hd => ?_,
    fun x b b' hx hr hb hd => ?_, fun s b hs hb => ⟨hb.1, h.setText s _ hs hb.2⟩⟩
  · simp only [XFields.encKids] at he
    split at he
    · cases he
    · rename_i es hes
      rw [Option.map_eq_some_iff] at he
      obtain ⟨ls, hl, rfl⟩ := he
      have h1 := hf.enc _ _ hb.1 hes
      have h2 := h.kids _ ls hb.2 hl
      rw [textOf_append, textOf_wrote h1, String.empty_append]
      refine ⟨fun k hk => ?_, h2.2⟩
      rcases List.mem_append.1 hk with hk | hk
      · exact (h1 k hk).2
      · exact h2.1 k hk
  · simp only [XFields.setAttr, Option.map_eq_some_iff] at hd
    obtain ⟨b', hd, rfl⟩ := hd
    exact ⟨hb.1, h.setAttr _ _ _ hp hb.2 hd⟩
  · simp only [XFields.setKid] at hd
    split at hd <;> rw [Option.map_eq_some_iff] at hd <;> obtain ⟨b', hd, rfl⟩ := hd
    · exact ⟨hf.dec _ _ _ hx hr hb.1 hd, hb.2⟩
    · exact ⟨hb.1, h.setKid _ _ _ hx hr hb.2 hd⟩

theorem decAttrs_keeps {β : Type} {F : XFields β} {K : β → Prop} (h : SayFs P Q n F K) :
    ∀ (as : List (String × String)) (b b' : β), (∀ kv ∈ as, P kv.2) → K b → F.decAttrs as b = some b' → K b'
  | [], b, b', _, hb, e => by cases e; exact hb
  | kv :: as, b, b', hp, hb, e => by
    simp only [XFields.decAttrs] at e
    split at e
    · cases e
    · rename_i c hc
      exact decAttrs_keeps h as c b' (fun y hy => hp y (List.mem_cons_of_mem _ hy))
        (h.setAttr _ _ _ (hp kv List.mem_cons_self) hb hc) e

theorem SayFs.dec {β : Type} {F : XFields β} {K : β → Prop} (h : SayFs P Q n F K) (hR : Rules P Q) {x : Xml} {b b' : β}
    (hx : x.depth ≤ n) (hr : Heard P x) (hb : K b) (hd : F.dec x b = some b') : K b' := by
  simp only [XFields.dec] at hd
  split at hd
  · cases hd
  · rename_i b1 h1
    split at hd
    · cases hd
    · rename_i b2 h2
      cases hd
      refine h.setText _ _ (hr.text hR) ?_
      exact decAll_keeps (G := fun k => k.depth < n ∧ Heard P k) (fun y a b hy => h.setKid y a b hy.1 hy.2) _ _ _
        (fun k hk => ⟨kid_depth hx hk, hr.kid hk⟩) (decAttrs_keeps h _ _ _ (fun _ hk => hr.attr hk) hb h1) h2

theorem SayFs.enc {σ β : Type} {F : XFields β} {K : β → Prop} {toP : σ → β} {ofP : β → σ} (h : SayFs P Q n F K)
    (ht : F.texts ≤ 1) {m : String} {s : σ} {x : Xml} (hs : K (toP s))
    (he : (XCodec.struct F toP ofP).enc m s = some (some x)) : Wrote Q x := by
  simp only [XCodec.struct, Option.map_eq_some_iff, Option.some.injEq] at he
  obtain ⟨ks, hk, rfl⟩ := he
  have := h.kids _ _ hs hk
  exact heard_elem (h.attrs _ hs) this.1 (this.2.2 ht)

theorem sayx_struct' {σ β : Type} {F : XFields β} {K : β → Prop} {toP : σ → β} {ofP : β → σ} (hR : Rules P Q)
    (hp : ∀ b, toP (ofP b) = b) (ht : F.texts ≤ 1) (h : SayFs P Q n F K) :
    SayX P Q (n + 1) (XCodec.struct F toP ofP) (fun s => K (toP s)) := by
  refine ⟨by simpa only [XCodec.struct, hp] using h.zero, fun m a x ha he => h.enc ht ha he, fun x a b hx hr ha hd => ?_⟩
  simp only [XCodec.struct, Option.map_eq_some_iff] at hd
  obtain ⟨b', hd, rfl⟩ := hd
  rw [hp]
  exact h.dec hR (by omega) hr ha hd

theorem SayX.mono {α : Type} {m : Nat} {c : XCodec α} {I : α → Prop} (h : SayX P Q n c I) (hm : m ≤ n) : SayX P Q m c I :=
  ⟨h.zero, h.enc, fun x a b hx => h.dec x a b (by omega)⟩

theorem sayx_struct {σ β : Type} {F : XFields β} {K : β → Prop} {toP : σ → β} {ofP : β → σ} (hR : Rules P Q)
    (hp : ∀ b, toP (ofP b) = b) (ht : F.texts ≤ 1) (h : SayFs P Q n F K) :
    SayX P Q n (XCodec.struct F toP ofP) (fun s => K (toP s)) :=
  (sayx_struct' hR hp ht h).mono (by omega)

theorem sayx_fresh {α : Type} {c : XCodec α} {I : α → Prop} (h : SayX P Q n c I) : SayX P Q n (X.fresh c) I :=
  ⟨h.zero, h.enc, fun x a b hx hr _ hd => h.dec x _ b hx hr h.zero hd⟩

theorem sayx_bomReference (hR : Rules P Q) : SayX P Q n X.bomReference (fun r => Q (sanitize r.val) ∧ True) :=
  have h := sayx_fresh (sayx_struct (n := n) (toP := fun r : BOMReference => (r.val, ())) (ofP := fun p => ⟨p.1⟩) hR
    (fun _ => rfl) (by decide) (sayf_attr (m := "ref") (oe := false) (sayt_string hR) (sayf_nil hR)))
  ⟨h.zero, h.enc, h.dec⟩
theorem sayx_dependencyRef (hR : Rules P Q) : SayX P Q n X.dependencyRef (fun r => Q (sanitize r) ∧ True) :=
  sayx_struct hR (fun _ => rfl) (by decide) (sayf_attr (sayt_string hR) (sayf_nil hR))

theorem sayx_ikev2 {σ β : Type} {F : XFields β} {K : β → Prop} {toP : σ → BOMReference × β} {ofP : BOMReference × β → σ}
    {isRef : β → Bool} (hR : Rules P Q) (hp : ∀ b, toP (ofP b) = b) (ht : F.texts = 0) (h : SayFs P Q n F K) :
    SayX P Q n (X.ikev2 F toP ofP isRef) (fun v => Q (sanitize (toP v).1.val) ∧ K (toP v).2) := by
  refine ⟨?_, fun m v x hv he => ?_, fun x a b hx hr ha hd => ?_⟩
  · simp only [X.ikev2, hp]
    exact ⟨hR.zero, h.zero⟩
  · simp only [X.ikev2] at he
    split at he
    · simp only [Option.some.injEq] at he
      subst he
      exact wrote_text (by simp) hv.1
    · exact (sayf_skip (z := (⟨""⟩ : BOMReference)) h).enc (by simp only [XFields.texts]; omega) hv.2 he
  · simp only [X.ikev2] at hd
    split at hd
    · cases hd
    · rename_i p hpp
      have hk : Q (sanitize (trim p.1)) ∧ K p.2 := by
        constructor
        · have : p.1 = textOf x.kids := by
            simp only [XFields.dec] at hpp
            split at hpp
            · cases hpp
            · split at hpp
              · cases hpp
              · cases hpp; rfl
          rw [this]
          exact hR.trimmed _ (hr.text hR)
        · exact ((sayf_chardata hR h).dec hR (by omega) hr ⟨hR.zero, h.zero⟩ hpp).2
      split at hd
      · cases hd
        rw [hp]
        exact ⟨hk.1, ha.2⟩
      · cases hd
        rw [hp]
        exact ⟨ha.1, hk.2⟩

theorem encEach_wrote {α : Type} {f : α → Option (List Xml)} : ∀ (as : List α) (ks : List Xml),
    (∀ a ∈ as, ∀ ls, f a = some ls → ∀ k ∈ ls, Wrote Q k) → X.encEach f as = some ks → ∀ k ∈ ks, Wrote Q k
  | [], ks, _, he => by cases he; simp
  | a :: as, ks, ha, he => by
    simp only [X.encEach] at he
    split at he
    · cases he
    · rename_i ls hl
      rw [Option.map_eq_some_iff] at he
      obtain ⟨ms, hm, rfl⟩ := he
      intro k hk
      rcases List.mem_append.1 hk with hk | hk
      · exact ha a List.mem_cons_self ls hl k hk
      · exact encEach_wrote as ms (fun b hb => ha b (List.mem_cons_of_mem _ hb)) hm k hk

theorem decEach_keeps {α : Type} {g : Xml → Option (List α)} {I : α → Prop} : ∀ (xs : List Xml) (as : List α),
    (∀ x ∈ xs, ∀ bs, g x = some bs → ∀ b ∈ bs, I b) → X.decEach g xs = some as → ∀ a ∈ as, I a
  | [], as, _, he => by cases he; simp
  | x :: xs, as, hx, he => by
    simp only [X.decEach] at he
    split at he
    · cases he
    · rename_i ls hl
      rw [Option.map_eq_some_iff] at he
      obtain ⟨ms, hm, rfl⟩ := he
      intro k hk
      rcases List.mem_append.1 hk with hk | hk
      · exact hx x List.mem_cons_self ls hl k hk
      · exact decEach_keeps xs ms (fun b hb => hx b (List.mem_cons_of_mem _ hb)) hm k hk

theorem ex_nil (hR : Rules P Q) : ∃ K, SayFs P Q n .nil K := ⟨_, sayf_nil hR⟩
theorem ex_skip {α β : Type} {z : α} {F : XFields β} : (∃ K, SayFs P Q n F K) → ∃ K, SayFs P Q n (.skip z F) K :=
  fun ⟨_, h⟩ => ⟨_, sayf_skip h⟩
theorem ex_attr {α β : Type} {m : String} {oe : Bool} {c : XText α} {I : α → Prop} {F : XFields β} (hc : SayT P Q c I) :
    (∃ K, SayFs P Q n F K) → ∃ K, SayFs P Q n (.attr m oe c F) K := fun ⟨_, h⟩ => ⟨_, sayf_attr hc h⟩
theorem ex_attrPtr {α β : Type} {m : String} {c : XText α} {I : α → Prop} {F : XFields β} (hc : SayT P Q c I) :
    (∃ K, SayFs P Q n F K) → ∃ K, SayFs P Q n (.attrPtr m c F) K := fun ⟨_, h⟩ => ⟨_, sayf_attrPtr hc h⟩
theorem ex_chardata {β : Type} {F : XFields β} (hR : Rules P Q) :
    (∃ K, SayFs P Q n F K) → ∃ K, SayFs P Q n (.chardata F) K := fun ⟨_, h⟩ => ⟨_, sayf_chardata hR h⟩
theorem ex_elem {α β : Type} {f : XField α} {F : XFields β} : (∃ I, SayE P Q n f I) →
    (∃ K, SayFs P Q n F K) → ∃ K, SayFs P Q n (.elem f F) K := fun ⟨_, hf⟩ ⟨_, h⟩ => ⟨_, sayf_elem hf h⟩
theorem ex_plain {α : Type} {c : XCodec α} {m : String} {oe : Bool} : (∃ I, SayX P Q n c I) →
    ∃ I, SayE P Q n (.plain m oe c) I := fun ⟨_, h⟩ => ⟨_, saye_plain h⟩
theorem ex_ptr {α : Type} {c : XCodec α} {m : String} : (∃ I, SayX P Q n c I) →
    ∃ I, SayE P Q n (.ptr m c) I := fun ⟨_, h⟩ => ⟨_, saye_ptr h⟩
theorem ex_list {α : Type} {c : XCodec α} {m : String} {oe : Bool} : (∃ I, SayX P Q n c I) →
    ∃ I, SayE P Q n (.list m oe c) I := fun ⟨_, h⟩ => ⟨_, saye_list h⟩
theorem ex_nlist {α : Type} {c : XCodec α} {p m : String} {oe : Bool} (hR : Rules P Q) : (∃ I, SayX P Q n c I) →
    ∃ I, SayE P Q n (.nlist p m oe c) I := fun ⟨_, h⟩ => ⟨_, saye_nlist hR h⟩
theorem ex_nptr {α : Type} {c : XCodec α} {p m : String} (hR : Rules P Q) : (∃ I, SayX P Q n c I) →
    ∃ I, SayE P Q n (.nptr p m c) I := fun ⟨_, h⟩ => ⟨_, saye_nptr hR h⟩
theorem ex_slice {α : Type} {c : XCodec (List α)} {m : String} (hz : c.zero = []) : (∃ I, SayX P Q n c I) →
    ∃ I, SayE P Q n (.slice m c) I := fun ⟨_, h⟩ => ⟨_, saye_slice h (hz ▸ h.zero)⟩
theorem ex_struct {σ β : Type} {F : XFields β} {toP : σ → β} {ofP : β → σ} (hR : Rules P Q)
    (hp : ∀ b, toP (ofP b) = b) (ht : F.texts ≤ 1) : (∃ K, SayFs P Q n F K) →
    ∃ I, SayX P Q n (XCodec.struct F toP ofP) I := fun ⟨_, h⟩ => ⟨_, sayx_struct hR hp ht h⟩
theorem ex_struct' {σ β : Type} {F : XFields β} {toP : σ → β} {ofP : β → σ} (hR : Rules P Q)
    (hp : ∀ b, toP (ofP b) = b) (ht : F.texts ≤ 1) : (∃ K, SayFs P Q n F K) →
    ∃ I, SayX P Q (n + 1) (XCodec.struct F toP ofP) I := fun ⟨_, h⟩ => ⟨_, sayx_struct' hR hp ht h⟩
theorem ex_ike {σ β : Type} {F : XFields β} {toP : σ → BOMReference × β} {ofP : BOMReference × β → σ}
    {isRef : β → Bool} (hR : Rules P Q) (hp : ∀ b, toP (ofP b) = b) (ht : F.texts = 0) : (∃ K, SayFs P Q n F K) →
    ∃ I, SayX P Q n (X.ikev2 F toP ofP isRef) I := fun ⟨_, h⟩ => ⟨_, sayx_ikev2 hR hp ht h⟩
theorem ex_simple {α : Type} {c : XText α} {I : α → Prop} (hR : Rules P Q) (h : SayT P Q c I) :
    ∃ I, SayX P Q n (XCodec.simple c) I := ⟨_, sayx_simple hR h⟩

