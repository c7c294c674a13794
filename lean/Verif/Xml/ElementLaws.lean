import Verif.Spec.Elements
import Verif.Xml.StructLaws

/-!
# Lemmas about the attributes, elements and text of XML elements
-/

namespace Verif
open Xml (textOf sanitize textKids)

namespace XFields

theorem setText_setText {β : Type} (F : XFields β) (s s' : String) (b : β) :
    F.setText s (F.setText s' b) = F.setText s b := by
  induction F with
  | nil => rfl
  | skip z F ih => simp only [setText, ih]
  | attr n oe c F ih => simp only [setText, ih]
  | attrPtr n c F ih => simp only [setText, ih]
  | chardata F ih => simp only [setText]
  | elem f F ih => simp only [setText, ih]

theorem setAttr_setText {β : Type} (F : XFields β) (kv : String × String) (s : String) (b : β) :
    F.setAttr kv (F.setText s b) = (F.setAttr kv b).map (F.setText s) := by
  induction F with
  | nil => rfl
  | skip z F ih => simp only [setText, setAttr, ih]; cases F.setAttr kv b.2 <;> rfl
  | attr n oe c F ih =>
    simp only [setText, setAttr]
    split
    · cases c.dec kv.2 <;> rfl
    · rw [ih]; cases F.setAttr kv b.2 <;> rfl
  | attrPtr n c F ih =>
    simp only [setText, setAttr]
    split
    · cases c.dec kv.2 <;> rfl
    · rw [ih]; cases F.setAttr kv b.2 <;> rfl
  | chardata F ih => simp only [setText, setAttr]; cases F.setAttr kv b.2 <;> rfl
  | elem f F ih => simp only [setText, setAttr, ih]; cases F.setAttr kv b.2 <;> rfl

theorem setKid_setText {β : Type} (F : XFields β) (x : Xml) (s : String) (b : β) :
    F.setKid x (F.setText s b) = (F.setKid x b).map (F.setText s) := by
  induction F with
  | nil => rfl
  | skip z F ih => simp only [setText, setKid, ih]; cases F.setKid x b.2 <;> rfl
  | attr n oe c F ih => simp only [setText, setKid, ih]; cases F.setKid x b.2 <;> rfl
  | attrPtr n c F ih => simp only [setText, setKid, ih]; cases F.setKid x b.2 <;> rfl
  | chardata F ih => simp only [setText, setKid]; cases F.setKid x b.2 <;> rfl
  | elem f F ih =>
    simp only [setText, setKid]
    split
    · cases f.dec x b.1 <;> rfl
    · rw [ih]; cases F.setKid x b.2 <;> rfl

theorem setKid_text' {β : Type} (F : XFields β) (s : String) (b : β) : F.setKid (.text s) b = some b := by
  induction F with
  | nil => rfl
  | skip z F ih => simp only [setKid, ih]; rfl
  | attr n oe c F ih => simp only [setKid, ih]; rfl
  | attrPtr n c F ih => simp only [setKid, ih]; rfl
  | chardata F ih => simp only [setKid, ih]; rfl
  | elem f F ih => simp only [setKid, Xml.isElem, Bool.false_eq_true, if_false, ih]; rfl

theorem decAttrs_setText {β : Type} (F : XFields β) (as : List (String × String)) (s : String) (b : β) :
    F.decAttrs as (F.setText s b) = (F.decAttrs as b).map (F.setText s) := by
  induction as generalizing b with
  | nil => rfl
  | cons a as ih =>
    simp only [decAttrs, setAttr_setText]
    cases F.setAttr a b with
    | none => rfl
    | some b' => exact ih b'

theorem decAll_setText {β : Type} (F : XFields β) (ks : List Xml) (s : String) (b : β) :
    XField.decAll F.setKid ks (F.setText s b) = (XField.decAll F.setKid ks b).map (F.setText s) := by
  induction ks generalizing b with
  | nil => rfl
  | cons k ks ih =>
    simp only [XField.decAll, setKid_setText]
    cases F.setKid k b with
    | none => rfl
    | some b' => exact ih b'

/-- What an element does to a variable does not depend on its text before. -/
theorem dec_setText {β : Type} (F : XFields β) (x : Xml) (s : String) (b : β) :
    F.dec x (F.setText s b) = F.dec x b := by
  simp only [dec, decAttrs_setText]
  cases F.decAttrs x.attrs b with
  | none => rfl
  | some b₁ =>
    simp only [Option.map_some, decAll_setText]
    cases XField.decAll F.setKid x.kids b₁ with
    | none => rfl
    | some b₂ => simp only [Option.map_some, setText_setText]

theorem dec_attr_cons {β : Type} (F : XFields β) (t t' : String) (a : String × String) (as : List (String × String))
    (ks : List Xml) (b : β) : F.dec (.elem t (a :: as) ks) b = (F.dec (.elem t' [a] []) b).bind (F.dec (.elem t as ks)) := by
  simp only [dec, Xml.attrs, Xml.kids, decAttrs, XField.decAll]
  cases F.setAttr a b with
  | none => rfl
  | some b' =>
    simp only [Option.bind_some]
    exact (dec_setText F (.elem t as ks) _ b').symm

theorem dec_elem_cons {β : Type} (F : XFields β) (t t' n : String) (as : List (String × String)) (ks ys : List Xml) (b : β) :
    F.dec (.elem t [] (.elem n as ks :: ys)) b =
      (F.dec (.elem t' [] [.elem n as ks]) b).bind (F.dec (.elem t [] ys)) := by
  simp only [dec, Xml.attrs, Xml.kids, decAttrs, XField.decAll, textOf]
  cases F.setKid (.elem n as ks) b with
  | none => rfl
  | some b' =>
    simp only [Option.bind_some]
    exact (dec_setText F (.elem t [] ys) _ b').symm

theorem decAll_elements {β : Type} (F : XFields β) (ks : List Xml) (b : β) :
    XField.decAll F.setKid (ks.filter Xml.isElement) b = XField.decAll F.setKid ks b := by
  induction ks generalizing b with
  | nil => rfl
  | cons k ks ih =>
    cases k with
    | text s => simp only [List.filter, Xml.isElement, XField.decAll, setKid_text', ih]
    | elem n as ls =>
      simp only [List.filter, Xml.isElement, XField.decAll]
      cases F.setKid (.elem n as ls) b with
      | none => rfl
      | some b' => exact ih b'

theorem dec_text {β : Type} (F : XFields β) (t : String) (as : List (String × String)) (ks : List Xml) (b : β) :
    F.dec (.elem t as ks) b = (F.dec (.elem t as (ks.filter Xml.isElement)) b).map (F.setText (textOf ks)) := by
  simp only [dec, Xml.attrs, Xml.kids, decAll_elements]
  cases F.decAttrs as b with
  | none => rfl
  | some b₁ =>
    simp only []
    cases XField.decAll F.setKid ks b₁ with
    | none => rfl
    | some b₂ => simp only [Option.map_some, setText_setText]

theorem setAttr_other {β : Type} (F : XFields β) (kv : String × String) (b : β) (h : kv.1 ∉ F.attrNames) :
    F.setAttr kv b = some b := by
  induction F with
  | nil => rfl
  | skip z F ih => simp only [setAttr, ih b.2 h]; rfl
  | attr n oe c F ih =>
    simp only [attrNames, List.mem_cons, not_or] at h
    simp only [setAttr, if_neg h.1, ih b.2 h.2]; rfl
  | attrPtr n c F ih =>
    simp only [attrNames, List.mem_cons, not_or] at h
    simp only [setAttr, if_neg h.1, ih b.2 h.2]; rfl
  | chardata F ih => simp only [setAttr, ih b.2 h]; rfl
  | elem f F ih => simp only [setAttr, ih b.2 h]; rfl

theorem setKid_other {β : Type} (F : XFields β) (n : String) (as : List (String × String)) (ks : List Xml) (b : β)
    (h : n ∉ F.elemNames) : F.setKid (.elem n as ks) b = some b := by
  induction F with
  | nil => rfl
  | skip z F ih => simp only [setKid, ih b.2 h]; rfl
  | attr n oe c F ih => simp only [setKid, ih b.2 h]; rfl
  | attrPtr n c F ih => simp only [setKid, ih b.2 h]; rfl
  | chardata F ih => simp only [setKid, ih b.2 h]; rfl
  | elem f F ih =>
    simp only [elemNames, List.mem_cons, not_or] at h
    simp only [setKid, Xml.isElem, decide_eq_true_eq, if_neg h.1, ih b.2 h.2]; rfl

/-- The fields of a struct, by kind and place. -/
inductive HasAttr : {β : Type} → XFields β → String → Bool → {α : Type} → XText α → (β → α) → (β → α → β) → Prop
  | here {α β : Type} {n : String} {oe : Bool} {c : XText α} {F : XFields β} :
      HasAttr (.attr n oe c F) n (!oe) c Prod.fst (fun b a => (a, b.2))
  | skip {α β γ : Type} {n : String} {a : Bool} {c : XText α} {F : XFields β} {z : γ} {g : β → α} {p : β → α → β} :
      HasAttr F n a c g p → HasAttr (.skip z F) n a c (fun b => g b.2) (fun b v => (b.1, p b.2 v))
  | attr {α β γ : Type} {n n' : String} {a oe' : Bool} {c : XText α} {c' : XText γ} {F : XFields β} {g : β → α}
      {p : β → α → β} : HasAttr F n a c g p → HasAttr (.attr n' oe' c' F) n a c (fun b => g b.2) (fun b v => (b.1, p b.2 v))
  | attrPtr {α β γ : Type} {n n' : String} {a : Bool} {c : XText α} {c' : XText γ} {F : XFields β} {g : β → α}
      {p : β → α → β} : HasAttr F n a c g p → HasAttr (.attrPtr n' c' F) n a c (fun b => g b.2) (fun b v => (b.1, p b.2 v))
  | chardata {α β : Type} {n : String} {a : Bool} {c : XText α} {F : XFields β} {g : β → α}
      {p : β → α → β} : HasAttr F n a c g p → HasAttr (.chardata F) n a c (fun b => g b.2) (fun b v => (b.1, p b.2 v))
  | elem {α β γ : Type} {n : String} {a : Bool} {c : XText α} {f : XField γ} {F : XFields β} {g : β → α}
      {p : β → α → β} : HasAttr F n a c g p → HasAttr (.elem f F) n a c (fun b => g b.2) (fun b v => (b.1, p b.2 v))

/-- The fields of a struct, by kind and place. -/
inductive HasAttrPtr : {β : Type} → XFields β → String → {α : Type} → XText α → (β → Option α) →
    (β → Option α → β) → Prop
  | here {α β : Type} {n : String} {c : XText α} {F : XFields β} :
      HasAttrPtr (.attrPtr n c F) n c Prod.fst (fun b a => (a, b.2))
  | skip {α β γ : Type} {n : String} {c : XText α} {F : XFields β} {z : γ} {g : β → Option α} {p : β → Option α → β} :
      HasAttrPtr F n c g p → HasAttrPtr (.skip z F) n c (fun b => g b.2) (fun b v => (b.1, p b.2 v))
  | attr {α β γ : Type} {n n' : String} {oe' : Bool} {c : XText α} {c' : XText γ} {F : XFields β} {g : β → Option α}
      {p : β → Option α → β} : HasAttrPtr F n c g p → HasAttrPtr (.attr n' oe' c' F) n c (fun b => g b.2) (fun b v => (b.1, p b.2 v))
  | attrPtr {α β γ : Type} {n n' : String} {c : XText α} {c' : XText γ} {F : XFields β} {g : β → Option α}
      {p : β → Option α → β} : HasAttrPtr F n c g p → HasAttrPtr (.attrPtr n' c' F) n c (fun b => g b.2) (fun b v => (b.1, p b.2 v))
  | chardata {α β : Type} {n : String} {c : XText α} {F : XFields β} {g : β → Option α}
      {p : β → Option α → β} : HasAttrPtr F n c g p → HasAttrPtr (.chardata F) n c (fun b => g b.2) (fun b v => (b.1, p b.2 v))
  | elem {α β γ : Type} {n : String} {c : XText α} {f : XField γ} {F : XFields β} {g : β → Option α}
      {p : β → Option α → β} : HasAttrPtr F n c g p → HasAttrPtr (.elem f F) n c (fun b => g b.2) (fun b v => (b.1, p b.2 v))

/-- The fields of a struct, by kind and place. -/
inductive HasElem : {β : Type} → XFields β → {α : Type} → XField α → (β → α) → (β → α → β) → Prop
  | here {α β : Type} {f : XField α} {F : XFields β} : HasElem (.elem f F) f Prod.fst (fun b a => (a, b.2))
  | skip {α β γ : Type} {f : XField α} {F : XFields β} {z : γ} {g : β → α} {p : β → α → β} :
      HasElem F f g p → HasElem (.skip z F) f (fun b => g b.2) (fun b v => (b.1, p b.2 v))
  | attr {α β γ : Type} {n' : String} {oe' : Bool} {f : XField α} {c' : XText γ} {F : XFields β} {g : β → α}
      {p : β → α → β} : HasElem F f g p → HasElem (.attr n' oe' c' F) f (fun b => g b.2) (fun b v => (b.1, p b.2 v))
  | attrPtr {α β γ : Type} {n' : String} {f : XField α} {c' : XText γ} {F : XFields β} {g : β → α}
      {p : β → α → β} : HasElem F f g p → HasElem (.attrPtr n' c' F) f (fun b => g b.2) (fun b v => (b.1, p b.2 v))
  | chardata {α β : Type} {f : XField α} {F : XFields β} {g : β → α}
      {p : β → α → β} : HasElem F f g p → HasElem (.chardata F) f (fun b => g b.2) (fun b v => (b.1, p b.2 v))
  | elem {α β γ : Type} {f : XField α} {f' : XField γ} {F : XFields β} {g : β → α}
      {p : β → α → β} : HasElem F f g p → HasElem (.elem f' F) f (fun b => g b.2) (fun b v => (b.1, p b.2 v))

/-- The text of a struct, by place. -/
inductive HasText : {β : Type} → XFields β → (β → String) → Prop
  | here {β : Type} {F : XFields β} : HasText (.chardata F) Prod.fst
  | skip {β γ : Type} {F : XFields β} {z : γ} {g : β → String} : HasText F g → HasText (.skip z F) (fun b => g b.2)
  | attr {β γ : Type} {n' : String} {oe' : Bool} {c' : XText γ} {F : XFields β} {g : β → String} :
      HasText F g → HasText (.attr n' oe' c' F) (fun b => g b.2)
  | attrPtr {β γ : Type} {n' : String} {c' : XText γ} {F : XFields β} {g : β → String} :
      HasText F g → HasText (.attrPtr n' c' F) (fun b => g b.2)
  | elem {β γ : Type} {f' : XField γ} {F : XFields β} {g : β → String} :
      HasText F g → HasText (.elem f' F) (fun b => g b.2)

theorem attrsCalled_none {n : String} {ns : List String} {as : List (String × String)} (h : ∀ a ∈ as, a.1 ∈ ns)
    (hn : n ∉ ns) : attrsCalled n as = [] := by
  unfold attrsCalled
  rw [List.filter_eq_nil_iff]
  intro a ha e
  simp only [decide_eq_true_eq] at e
  exact hn (e ▸ h a ha)

theorem encAttrs_names {β : Type} (F : XFields β) (b : β) : ∀ a ∈ F.encAttrs b, a.1 ∈ F.attrNames := by
  induction F with
  | nil => intro a h; cases h
  | skip z F ih => exact ih b.2
  | attr n oe c F ih =>
    intro a h
    simp only [encAttrs] at h
    simp only [attrNames, List.mem_cons]
    split at h
    · exact .inr (ih b.2 a h)
    · rcases List.mem_cons.1 h with rfl | h
      · exact .inl rfl
      · exact .inr (ih b.2 a h)
  | attrPtr n c F ih =>
    intro a h
    simp only [encAttrs] at h
    simp only [attrNames, List.mem_cons]
    split at h
    · exact .inr (ih b.2 a h)
    · rcases List.mem_cons.1 h with rfl | h
      · exact .inl rfl
      · exact .inr (ih b.2 a h)
  | chardata F ih => exact ih b.2
  | elem f F ih => exact ih b.2

theorem HasAttr.mem {β α : Type} {F : XFields β} {n : String} {a : Bool} {c : XText α} {g : β → α} {p : β → α → β}
    (h : F.HasAttr n a c g p) : n ∈ F.attrNames := by
  induction h <;> simp_all [attrNames]

theorem HasAttrPtr.mem {β α : Type} {F : XFields β} {n : String} {c : XText α} {g : β → Option α}
    {p : β → Option α → β} (h : F.HasAttrPtr n c g p) : n ∈ F.attrNames := by
  induction h <;> simp_all [attrNames]

theorem HasElem.mem {β α : Type} {F : XFields β} {f : XField α} {g : β → α} {p : β → α → β}
    (h : F.HasElem f g p) : f.name ∈ F.elemNames := by
  induction h <;> simp_all [elemNames]

theorem attrsCalled_cons_ne {n n' s : String} {as : List (String × String)} (h : n' ≠ n) :
    attrsCalled n ((n', s) :: as) = attrsCalled n as := by
  simp [attrsCalled, h]

theorem attrsCalled_cons_eq {n s : String} {as : List (String × String)} :
    attrsCalled n ((n, s) :: as) = (n, s) :: attrsCalled n as := by
  simp [attrsCalled]

theorem HasAttr.written {β α : Type} {F : XFields β} {n : String} {a : Bool} {c : XText α} {g : β → α} {p : β → α → β}
    (h : F.HasAttr n a c g p) : F.attrNames.Nodup → ∀ b,
    attrsCalled n (F.encAttrs b) = if a = false ∧ c.empty (g b) = true then [] else [(n, c.enc (g b))] := by
  induction h with
  | @here α β n oe c F =>
    intro hd b
    have hd' := (List.nodup_cons.1 hd).1
    have hn := attrsCalled_none (F.encAttrs_names b.2) hd'
    simp only [encAttrs]
    cases oe <;> cases c.empty b.1 <;> simp [attrsCalled_cons_eq, hn]
  | skip _ ih => intro hd b; exact ih hd b.2
  | @attr α β γ n n' a oe' c c' F g p hF ih =>
    intro hd b
    have hd' := List.nodup_cons.1 hd
    have hne : n' ≠ n := fun e => hd'.1 (e ▸ hF.mem)
    simp only [encAttrs]
    split
    · exact ih hd'.2 b.2
    · rw [attrsCalled_cons_ne hne]; exact ih hd'.2 b.2
  | @attrPtr α β γ n n' a c c' F g p hF ih =>
    intro hd b
    have hd' := List.nodup_cons.1 hd
    have hne : n' ≠ n := fun e => hd'.1 (e ▸ hF.mem)
    simp only [encAttrs]
    split
    · exact ih hd'.2 b.2
    · rw [attrsCalled_cons_ne hne]; exact ih hd'.2 b.2
  | chardata _ ih => intro hd b; exact ih hd b.2
  | elem _ ih => intro hd b; exact ih hd b.2

theorem HasAttrPtr.written {β α : Type} {F : XFields β} {n : String} {c : XText α} {g : β → Option α}
    {p : β → Option α → β} (h : F.HasAttrPtr n c g p) : F.attrNames.Nodup → ∀ b,
    attrsCalled n (F.encAttrs b) = (g b).toList.map fun v => (n, c.enc v) := by
  induction h with
  | @here α β n c F =>
    intro hd b
    have hd' := (List.nodup_cons.1 hd).1
    have hn := attrsCalled_none (F.encAttrs_names b.2) hd'
    simp only [encAttrs]
    cases b.1 <;> simp [attrsCalled_cons_eq, hn]
  | skip _ ih => intro hd b; exact ih hd b.2
  | @attr α β γ n n' oe' c c' F g p hF ih =>
    intro hd b
    have hd' := List.nodup_cons.1 hd
    have hne : n' ≠ n := fun e => hd'.1 (e ▸ hF.mem)
    simp only [encAttrs]
    split
    · exact ih hd'.2 b.2
    · rw [attrsCalled_cons_ne hne]; exact ih hd'.2 b.2
  | @attrPtr α β γ n n' c c' F g p hF ih =>
    intro hd b
    have hd' := List.nodup_cons.1 hd
    have hne : n' ≠ n := fun e => hd'.1 (e ▸ hF.mem)
    simp only [encAttrs]
    split
    · exact ih hd'.2 b.2
    · rw [attrsCalled_cons_ne hne]; exact ih hd'.2 b.2
  | chardata _ ih => intro hd b; exact ih hd b.2
  | elem _ ih => intro hd b; exact ih hd b.2

theorem HasAttr.set {β α : Type} {F : XFields β} {n : String} {a : Bool} {c : XText α} {g : β → α} {p : β → α → β}
    (h : F.HasAttr n a c g p) : F.attrNames.Nodup → ∀ s b, F.setAttr (n, s) b = (c.dec s).map (p b) := by
  induction h with
  | here => intro _ s b; simp [setAttr]
  | skip _ ih => intro hd s b; simp only [setAttr]; rw [ih hd]; cases XText.dec _ s <;> rfl
  | @attr α β γ n n' a oe' c c' F g p hF ih =>
    intro hd s b
    have hd' := List.nodup_cons.1 hd
    have hne : n ≠ n' := fun e => hd'.1 (e ▸ hF.mem)
    simp only [setAttr, if_neg hne]; rw [ih hd'.2]; cases c.dec s <;> rfl
  | @attrPtr α β γ n n' a c c' F g p hF ih =>
    intro hd s b
    have hd' := List.nodup_cons.1 hd
    have hne : n ≠ n' := fun e => hd'.1 (e ▸ hF.mem)
    simp only [setAttr, if_neg hne]; rw [ih hd'.2]; cases c.dec s <;> rfl
  | chardata _ ih => intro hd s b; simp only [setAttr]; rw [ih hd]; cases XText.dec _ s <;> rfl
  | elem _ ih => intro hd s b; simp only [setAttr]; rw [ih hd]; cases XText.dec _ s <;> rfl

theorem HasAttrPtr.set {β α : Type} {F : XFields β} {n : String} {c : XText α} {g : β → Option α}
    {p : β → Option α → β} (h : F.HasAttrPtr n c g p) : F.attrNames.Nodup → ∀ s b,
    F.setAttr (n, s) b = (c.dec s).map fun v => p b (some v) := by
  induction h with
  | here => intro _ s b; simp [setAttr]
  | skip _ ih => intro hd s b; simp only [setAttr]; rw [ih hd]; cases XText.dec _ s <;> rfl
  | @attr α β γ n n' oe' c c' F g p hF ih =>
    intro hd s b
    have hd' := List.nodup_cons.1 hd
    have hne : n ≠ n' := fun e => hd'.1 (e ▸ hF.mem)
    simp only [setAttr, if_neg hne]; rw [ih hd'.2]; cases c.dec s <;> rfl
  | @attrPtr α β γ n n' c c' F g p hF ih =>
    intro hd s b
    have hd' := List.nodup_cons.1 hd
    have hne : n ≠ n' := fun e => hd'.1 (e ▸ hF.mem)
    simp only [setAttr, if_neg hne]; rw [ih hd'.2]; cases c.dec s <;> rfl
  | chardata _ ih => intro hd s b; simp only [setAttr]; rw [ih hd]; cases XText.dec _ s <;> rfl
  | elem _ ih => intro hd s b; simp only [setAttr]; rw [ih hd]; cases XText.dec _ s <;> rfl

theorem HasElem.set {β α : Type} {F : XFields β} {f : XField α} {g : β → α} {p : β → α → β}
    (h : F.HasElem f g p) : F.elemNames.Nodup → ∀ as ks b,
    F.setKid (.elem f.name as ks) b = (f.dec (.elem f.name as ks) (g b)).map (p b) := by
  induction h with
  | here => intro _ as ks b; simp [setKid, Xml.isElem]
  | skip _ ih => intro hd as ks b; simp only [setKid]; rw [ih hd]; cases XField.dec _ _ _ <;> rfl
  | attr _ ih => intro hd as ks b; simp only [setKid]; rw [ih hd]; cases XField.dec _ _ _ <;> rfl
  | attrPtr _ ih => intro hd as ks b; simp only [setKid]; rw [ih hd]; cases XField.dec _ _ _ <;> rfl
  | chardata _ ih => intro hd as ks b; simp only [setKid]; rw [ih hd]; cases XField.dec _ _ _ <;> rfl
  | @elem α β γ f f' F g p hF ih =>
    intro hd as ks b
    have hd' := List.nodup_cons.1 hd
    have hne : ¬ (f.name = f'.name) := fun e => hd'.1 (e ▸ hF.mem)
    simp only [setKid, Xml.isElem, decide_eq_true_eq, if_neg hne]; rw [ih hd'.2]; cases XField.dec _ _ _ <;> rfl

end XFields

theorem isElem_called {x : Xml} {n m : String} (h : x.isElem n = true) (h' : x.isElem m = true) : n = m := by
  cases x with
  | elem k as ks => simp only [Xml.isElem, decide_eq_true_eq] at h h'; exact h.symm.trans h'
  | text s => simp [Xml.isElem] at h

theorem elemsCalled_all {n : String} {ks : List Xml} (h : ∀ k ∈ ks, k.isElem n = true) : elemsCalled n ks = ks :=
  List.filter_eq_self.2 h

theorem elemsCalled_none {n : String} {ns : List String} {ks : List Xml}
    (h : ∀ k ∈ ks, (∃ m ∈ ns, k.isElem m = true) ∨ ∃ s, k = .text s) (hn : n ∉ ns) : elemsCalled n ks = [] := by
  unfold elemsCalled
  rw [List.filter_eq_nil_iff]
  intro k hk e
  rcases h k hk with ⟨m, hm, hk'⟩ | ⟨s, rfl⟩
  · exact hn (isElem_called e hk' ▸ hm)
  · simp [Xml.isElem] at e

theorem elemsCalled_append (n : String) (ks ls : List Xml) :
    elemsCalled n (ks ++ ls) = elemsCalled n ks ++ elemsCalled n ls := List.filter_append ..

theorem elemsCalled_textKids (n s : String) : elemsCalled n (textKids s) = [] := by
  unfold elemsCalled textKids
  split <;> simp [Xml.isElem]

/-- Every field writes elements of its name only. -/
def XFields.Named : {β : Type} → XFields β → Prop
  | _, .nil => True
  | _, .skip _ F => F.Named
  | _, .attr _ _ _ F => F.Named
  | _, .attrPtr _ _ F => F.Named
  | _, .chardata F => F.Named
  | _, .elem f F => (∀ a xs, f.enc a = some xs → ∀ x ∈ xs, x.isElem f.name = true) ∧ F.Named

namespace XFields

theorem Named.kids {β : Type} {F : XFields β} (hN : F.Named) : ∀ b ks, F.encKids b = some ks →
    ∀ k ∈ ks, (∃ n ∈ F.elemNames, k.isElem n = true) ∨ ∃ s, k = .text s := by
  induction F with
  | nil => intro b ks h k hk; simp only [encKids, Option.some.injEq] at h; subst h; cases hk
  | skip _ F ih => intro b ks h; exact ih hN b.2 ks h
  | attr _ _ _ F ih => intro b ks h; exact ih hN b.2 ks h
  | attrPtr _ _ F ih => intro b ks h; exact ih hN b.2 ks h
  | chardata F ih =>
    intro b ks h k hk
    obtain ⟨ks', h', rfl⟩ := Option.map_eq_some_iff.1 h
    rcases List.mem_append.1 hk with hk | hk
    · right
      unfold textKids at hk
      split at hk
      · cases hk
      · exact ⟨_, List.mem_singleton.1 hk⟩
    · exact ih hN b.2 ks' h' k hk
  | elem f F ih =>
    intro b ks h k hk
    obtain ⟨hf, hN⟩ := hN
    simp only [encKids] at h
    split at h
    · cases h
    · rename_i xs hx
      obtain ⟨ks', h', rfl⟩ := Option.map_eq_some_iff.1 h
      simp only [elemNames, List.mem_cons]
      rcases List.mem_append.1 hk with hk | hk
      · exact .inl ⟨f.name, .inl rfl, hf _ _ hx k hk⟩
      · rcases ih hN b.2 ks' h' k hk with ⟨n, hn, e⟩ | h
        · exact .inl ⟨n, .inr hn, e⟩
        · exact .inr h

theorem HasElem.written {β α : Type} {F : XFields β} {f : XField α} {g : β → α} {p : β → α → β}
    (h : F.HasElem f g p) : F.Named → F.elemNames.Nodup → ∀ b ks, F.encKids b = some ks →
    f.enc (g b) = some (elemsCalled f.name ks) := by
  induction h with
  | @here α β f F =>
    intro hN hd b ks h
    obtain ⟨hf, hN⟩ := hN
    have hd' := List.nodup_cons.1 hd
    simp only [encKids] at h
    split at h
    · cases h
    · rename_i xs hx
      obtain ⟨ks', h', rfl⟩ := Option.map_eq_some_iff.1 h
      rw [elemsCalled_append, elemsCalled_all (hf _ _ hx), elemsCalled_none (hN.kids _ _ h') hd'.1, List.append_nil]
      exact hx
  | skip _ ih => intro hN hd b ks h; exact ih hN hd b.2 ks h
  | attr _ ih => intro hN hd b ks h; exact ih hN hd b.2 ks h
  | attrPtr _ ih => intro hN hd b ks h; exact ih hN hd b.2 ks h
  | chardata _ ih =>
    intro hN hd b ks h
    change XFields.Named _ at hN
    obtain ⟨ks', h', rfl⟩ := Option.map_eq_some_iff.1 h
    rw [elemsCalled_append, elemsCalled_textKids, List.nil_append]
    exact ih hN hd b.2 ks' h'
  | @elem α β γ f f' F g p hF ih =>
    intro hN hd b ks h
    obtain ⟨hf, hN⟩ := hN
    have hd' := List.nodup_cons.1 hd
    have hne : f.name ∉ [f'.name] := by
      intro e
      exact hd'.1 (List.mem_singleton.1 e ▸ hF.mem)
    simp only [encKids] at h
    split at h
    · cases h
    · rename_i xs hx
      obtain ⟨ks', h', rfl⟩ := Option.map_eq_some_iff.1 h
      rw [elemsCalled_append, elemsCalled_none (fun k hk => .inl ⟨_, List.mem_singleton.2 rfl, hf _ _ hx k hk⟩) hne,
        List.nil_append]
      exact ih hN hd'.2 b.2 ks' h'

theorem Named.notext {β : Type} {F : XFields β} (hN : F.Named) : F.texts = 0 → ∀ b ks, F.encKids b = some ks →
    textOf ks = "" := by
  induction F with
  | nil => intro _ b ks h; simp only [encKids, Option.some.injEq] at h; subst h; rfl
  | skip _ F ih => intro ht b ks h; exact ih hN ht b.2 ks h
  | attr _ _ _ F ih => intro ht b ks h; exact ih hN ht b.2 ks h
  | attrPtr _ _ F ih => intro ht b ks h; exact ih hN ht b.2 ks h
  | chardata F ih => intro ht; simp [texts] at ht
  | elem f F ih =>
    intro ht b ks h
    obtain ⟨hf, hN⟩ := hN
    simp only [encKids] at h
    split at h
    · cases h
    · rename_i xs hx
      obtain ⟨ks', h', rfl⟩ := Option.map_eq_some_iff.1 h
      rw [textOf_append, textOf_elems (hf _ _ hx), ih hN ht b.2 ks' h', String.empty_append]

theorem HasText.written {β : Type} {F : XFields β} {g : β → String} (h : F.HasText g) : F.Named → F.texts ≤ 1 →
    ∀ b ks, F.encKids b = some ks → textOf ks = sanitize (g b) := by
  induction h with
  | @here β F =>
    intro hN ht b ks h
    change XFields.Named _ at hN
    obtain ⟨ks', h', rfl⟩ := Option.map_eq_some_iff.1 h
    rw [textOf_append, textOf_textKids, Named.notext (F := F) hN (by simp only [texts] at ht; omega) _ _ h', String.append_empty]
  | skip _ ih => intro hN ht b ks h; exact ih hN ht b.2 ks h
  | attr _ ih => intro hN ht b ks h; exact ih hN ht b.2 ks h
  | attrPtr _ ih => intro hN ht b ks h; exact ih hN ht b.2 ks h
  | @elem β γ f' F g hF ih =>
    intro hN ht b ks h
    obtain ⟨hf, hN⟩ := hN
    simp only [encKids] at h
    split at h
    · cases h
    · rename_i xs hx
      obtain ⟨ks', h', rfl⟩ := Option.map_eq_some_iff.1 h
      rw [textOf_append, textOf_elems (hf _ _ hx), String.empty_append]
      exact ih hN ht b.2 ks' h'

end XFields

/-- Every field writes elements of its name only. -/
class XNames {β : Type} (F : XFields β) : Prop where
  named : F.Named

instance : XNames .nil := ⟨trivial⟩
instance {α β : Type} {z : α} {F : XFields β} [L : XNames F] : XNames (.skip z F) := ⟨L.named⟩
instance {α β : Type} {n : String} {oe : Bool} {c : XText α} {F : XFields β} [L : XNames F] : XNames (.attr n oe c F) :=
  ⟨L.named⟩
instance {α β : Type} {n : String} {c : XText α} {F : XFields β} [L : XNames F] : XNames (.attrPtr n c F) := ⟨L.named⟩
instance {β : Type} {F : XFields β} [L : XNames F] : XNames (.chardata F) := ⟨L.named⟩
instance {α β : Type} {f : XField α} {F : XFields β} [Lf : XFieldLawful f] [L : XNames F] : XNames (.elem f F) :=
  ⟨Lf.named, L.named⟩

section struct

variable {σ β : Type} {F : XFields β} {toP : σ → β} {ofP : β → σ} {txt : σ → String → σ}

theorem struct_element (h2 : ∀ b, toP (ofP b) = b) (hN : F.Named)
    (ht : ∀ x s, txt x s = ofP (F.setText s (toP x))) (attrs elems : List String) (ha : F.attrNames = attrs)
    (he : F.elemNames = elems) : Element (XCodec.struct F toP ofP) attrs elems txt where
  written tag x o h := by
    obtain ⟨ks, h', rfl⟩ := Option.map_eq_some_iff.1 h
    subst ha he
    exact ⟨_, ks, rfl, F.encAttrs_names _, hN.kids _ _ h'⟩
  empty t x := by rw [ht]; rfl
  attr t t' a as ks x := by
    show ((F.dec _ (toP x)).map ofP) = ((F.dec _ (toP x)).map ofP).bind fun y => (F.dec _ (toP y)).map ofP
    rw [F.dec_attr_cons t t']
    cases F.dec (.elem t' [a] []) (toP x) with
    | none => rfl
    | some b => simp only [Option.map_some, Option.bind_some, h2]
  elem t t' n as ks ys x := by
    show ((F.dec _ (toP x)).map ofP) = ((F.dec _ (toP x)).map ofP).bind fun y => (F.dec _ (toP y)).map ofP
    rw [F.dec_elem_cons t t']
    cases F.dec (.elem t' [] [.elem n as ks]) (toP x) with
    | none => rfl
    | some b => simp only [Option.map_some, Option.bind_some, h2]
  text t as ks x := by
    show ((F.dec _ (toP x)).map ofP) = ((F.dec _ (toP x)).map ofP).map _
    rw [F.dec_text]
    cases F.dec (.elem t as (ks.filter Xml.isElement)) (toP x) with
    | none => rfl
    | some b => simp only [Option.map_some, h2, ht]
  otherAttr t a x h := by
    show ((F.dec _ (toP x)).map ofP) = _
    simp only [XFields.dec, Xml.attrs, Xml.kids, XFields.decAttrs, F.setAttr_other a _ (ha ▸ h), XField.decAll, textOf]
    rw [ht]; rfl
  otherElem t n as ks x h := by
    show ((F.dec _ (toP x)).map ofP) = _
    simp only [XFields.dec, Xml.attrs, Xml.kids, XFields.decAttrs, F.setKid_other n as ks _ (he ▸ h), XField.decAll, textOf]
    rw [ht]; rfl

theorem struct_attr {α : Type} {n : String} {a : Bool} {c : XText α} {g : β → α} {p : β → α → β}
    (h : F.HasAttr n a c g p) (h2 : ∀ b, toP (ofP b) = b) (hd : F.attrNames.Nodup)
    (ht : ∀ x s, txt x s = ofP (F.setText s (toP x)))
    {get : σ → α} {put : σ → α → σ} (hg : ∀ s, get s = g (toP s)) (hp : ∀ s v, put s v = ofP (p (toP s) v)) :
    AttrField (XCodec.struct F toP ofP) txt n a c get put where
  written tag x as ks hx := by
    obtain ⟨ks', h', e⟩ := Option.map_eq_some_iff.1 hx
    cases e
    rw [hg]
    exact h.written hd (toP x)
  read t s x := by
    show ((F.dec _ (toP x)).map ofP) = _
    simp only [XFields.dec, Xml.attrs, Xml.kids, XFields.decAttrs, XField.decAll, textOf]
    rw [h.set hd]
    cases c.dec s with
    | none => rfl
    | some v => simp only [Option.map_some, ht, hp, h2]

theorem struct_attrPtr {α : Type} {n : String} {c : XText α} {g : β → Option α} {p : β → Option α → β}
    (h : F.HasAttrPtr n c g p) (h2 : ∀ b, toP (ofP b) = b) (hd : F.attrNames.Nodup)
    (ht : ∀ x s, txt x s = ofP (F.setText s (toP x)))
    {get : σ → Option α} {put : σ → Option α → σ} (hg : ∀ s, get s = g (toP s))
    (hp : ∀ s v, put s v = ofP (p (toP s) v)) :
    AttrPtrField (XCodec.struct F toP ofP) txt n c get put where
  written tag x as ks hx := by
    obtain ⟨ks', h', e⟩ := Option.map_eq_some_iff.1 hx
    cases e
    rw [hg]
    exact h.written hd (toP x)
  read t s x := by
    show ((F.dec _ (toP x)).map ofP) = _
    simp only [XFields.dec, Xml.attrs, Xml.kids, XFields.decAttrs, XField.decAll, textOf]
    rw [h.set hd]
    cases c.dec s with
    | none => rfl
    | some v => simp only [Option.map_some, ht, hp, h2]

theorem struct_text {g : β → String} (h : F.HasText g) (hN : F.Named) (h1 : F.texts ≤ 1)
    {get : σ → String} (hg : ∀ s, get s = g (toP s)) : TextField (XCodec.struct F toP ofP) get where
  written tag x as ks hx := by
    obtain ⟨ks', h', e⟩ := Option.map_eq_some_iff.1 hx
    cases e
    rw [hg]
    exact h.written hN h1 (toP x) ks h'

theorem struct_elem {α : Type} {f : XField α} {g : β → α} {p : β → α → β}
    (h : F.HasElem f g p) (h2 : ∀ b, toP (ofP b) = b) (hN : F.Named) (hd : F.elemNames.Nodup)
    (ht : ∀ x s, txt x s = ofP (F.setText s (toP x)))
    {get : σ → α} {put : σ → α → σ} (hg : ∀ s, get s = g (toP s)) (hp : ∀ s v, put s v = ofP (p (toP s) v)) :
    ElemField (XCodec.struct F toP ofP) txt f get put where
  written tag x as ks hx := by
    obtain ⟨ks', h', e⟩ := Option.map_eq_some_iff.1 hx
    cases e
    rw [hg]
    exact h.written hN hd (toP x) ks h'
  read t as ks x := by
    show ((F.dec _ (toP x)).map ofP) = _
    simp only [XFields.dec, Xml.attrs, Xml.kids, XFields.decAttrs, XField.decAll, textOf]
    rw [h.set hd, hg]
    cases f.dec (.elem f.name as ks) (g (toP x)) with
    | none => rfl
    | some v => simp only [Option.map_some, ht, hp, h2]

end struct

section congr

variable {σ : Type} {c c' : XCodec σ} {txt : σ → String → σ}

theorem Element.congr {attrs elems : List String} (h : Element c attrs elems txt)
    (he : ∀ n x o, c'.enc n x = some o → c.enc n x = some o) (hd : ∀ y x, c'.dec y x = c.dec y x) :
    Element c' attrs elems txt := by
  have hd' : c'.dec = c.dec := funext fun y => funext (hd y)
  obtain ⟨w, e1, e2, e3, e4, e5, e6⟩ := h
  refine ⟨fun t x o h => w t x o (he t x o h), ?_, ?_, ?_, ?_, ?_, ?_⟩ <;> rw [hd'] <;> assumption

theorem AttrField.congr {α : Type} {n : String} {a : Bool} {d : XText α} {get : σ → α} {put : σ → α → σ}
    (h : AttrField c txt n a d get put) (he : ∀ n x o, c'.enc n x = some o → c.enc n x = some o)
    (hd : ∀ y x, c'.dec y x = c.dec y x) : AttrField c' txt n a d get put :=
  ⟨fun t x as ks h' => h.written t x as ks (he _ _ _ h'), fun t s x => by rw [hd]; exact h.read t s x⟩

theorem AttrPtrField.congr {α : Type} {n : String} {d : XText α} {get : σ → Option α} {put : σ → Option α → σ}
    (h : AttrPtrField c txt n d get put) (he : ∀ n x o, c'.enc n x = some o → c.enc n x = some o)
    (hd : ∀ y x, c'.dec y x = c.dec y x) : AttrPtrField c' txt n d get put :=
  ⟨fun t x as ks h' => h.written t x as ks (he _ _ _ h'), fun t s x => by rw [hd]; exact h.read t s x⟩

theorem ElemField.congr {α : Type} {f : XField α} {get : σ → α} {put : σ → α → σ}
    (h : ElemField c txt f get put) (he : ∀ n x o, c'.enc n x = some o → c.enc n x = some o)
    (hd : ∀ y x, c'.dec y x = c.dec y x) : ElemField c' txt f get put :=
  ⟨fun t x as ks h' => h.written t x as ks (he _ _ _ h'), fun t as ks x => by rw [hd]; exact h.read t as ks x⟩

end congr

end Verif
