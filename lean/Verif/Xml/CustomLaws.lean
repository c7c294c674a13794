import Verif.Xml.Knot

/-!
# Laws of the building blocks of hand-written XML methods
-/

namespace Verif

open Xml (sanitize trim textOf textKids)

theorem Xml.isElem_elim {x : Xml} {n : String} (h : x.isElem n = true) : ∃ as ks, x = .elem n as ks := by
  cases x with
  | elem m as ks => simp only [Xml.isElem, decide_eq_true_eq] at h; subst h; exact ⟨as, ks, rfl⟩
  | text s => simp [Xml.isElem] at h

theorem fresh_lawful {α : Type} {c : XCodec α} (L : XLawful c) : XLawful (X.fresh c) :=
  ⟨L.round, L.named, L.writes⟩

/-- The laws do not speak about `omitempty`. -/
theorem lawful_empty {α : Type} {c : XCodec α} (L : XLawful c) (e : α → Bool) : XLawful { c with empty := e } :=
  ⟨L.round, L.named, L.writes⟩

theorem named_empty {α : Type} {c : XCodec α} (L : XNamed c) (e : α → Bool) : XNamed { c with empty := e } :=
  ⟨L.rename⟩

/-! ### Loops -/

theorem decEach_append {α : Type} (g : Xml → Option (List α)) (xs ys : List Xml) :
    X.decEach g (xs ++ ys) = (X.decEach g xs).bind fun as => (X.decEach g ys).map (as ++ ·) := by
  induction xs with
  | nil => simp [X.decEach]
  | cons x xs ih =>
    simp only [List.cons_append, X.decEach]
    cases g x with
    | none => rfl
    | some as =>
      simp only [ih]
      cases X.decEach g xs with
      | none => rfl
      | some bs => cases X.decEach g ys <;> simp

theorem decEach_single {α : Type} (g : Xml → Option (List α)) (x : Xml) : X.decEach g [x] = g x := by
  simp only [X.decEach]
  cases g x <;> simp

theorem each_round {α β : Type} {f : α → Option (List Xml)} {g : Xml → Option (List β)} {nrm : α → List β}
    {good : α → Prop} (h : ∀ a ks, good a → f a = some ks → X.decEach g ks = some (nrm a)) :
    ∀ (as : List α) (ks : List Xml), (∀ a ∈ as, good a) → X.encEach f as = some ks →
      X.decEach g ks = some (as.flatMap nrm)
  | [], ks, _, e => by simp only [X.encEach, Option.some.injEq] at e; subst e; rfl
  | a :: as, ks, hg, e => by
    simp only [X.encEach] at e
    split at e
    · cases e
    · rename_i k₁ hk₁
      obtain ⟨k₂, hk₂, rfl⟩ := Option.map_eq_some_iff.1 e
      rw [decEach_append, h a k₁ (hg a (by simp)) hk₁, each_round h as k₂ (fun b hb => hg b (by simp [hb])) hk₂]
      simp

/-! ### Structs -/

theorem ofList_elems {α : Type} (as : List α) : (XField.ofList as).elems = as := by
  cases as <;> rfl

theorem ofList_isNil {α : Type} (as : List α) : (XField.ofList as).isNil = as.isEmpty := by
  cases as <;> rfl

theorem encKids_elem {α β : Type} {f : XField α} {F : XFields β} {b : α × β} {ks : List Xml}
    (h : (XFields.elem f F).encKids b = some ks) :
    ∃ k₁ k₂, f.enc b.1 = some k₁ ∧ F.encKids b.2 = some k₂ ∧ ks = k₁ ++ k₂ := by
  simp only [XFields.encKids] at h
  split at h
  · cases h
  · rename_i k₁ hk₁
    obtain ⟨k₂, hk₂, rfl⟩ := Option.map_eq_some_iff.1 h
    exact ⟨k₁, k₂, hk₁, hk₂, rfl⟩

/-- A struct whose first field leaves all children to the others. -/
theorem dec_others {α β : Type} (f : XField α) (F : XFields β) (x : Xml) (a : α) (b : β)
    (h : ∀ y ∈ x.kids, y.isElem f.name = false) :
    (XFields.elem f F).dec x (a, b) = (F.dec x b).map (a, ·) := by
  simp only [XFields.dec]
  rw [decAttrs_pass (F := F) (fun _ _ _ => rfl)]
  cases F.decAttrs x.attrs b with
  | none => rfl
  | some b₁ =>
    simp only [Option.map_some]
    rw [decKids_others f F _ _ _ h]
    cases XField.decAll F.setKid x.kids b₁ <;> rfl

/-- A struct whose first field takes all children. -/
theorem dec_own {α β : Type} (f : XField α) (F : XFields β) (n : String) (ks : List Xml) (a : α) (b : β)
    (ht : F.texts = 0) (h : ∀ y ∈ ks, y.isElem f.name = true) :
    (XFields.elem f F).dec (.elem n [] ks) (a, b) = (XField.decAll f.dec ks a).map (·, b) := by
  simp only [XFields.dec, Xml.attrs, Xml.kids, XFields.decAttrs]
  rw [decKids_own f F _ _ _ h]
  cases XField.decAll f.dec ks a with
  | none => rfl
  | some a' => simp only [Option.map_some, XFields.setText, F.setText_of_none ht]

/-- The enclosing element of a list, read by a struct whose first field is the list. -/
theorem dec_list_first {α β : Type} {c : XCodec α} [L : XLawful c] [N : XNamed c] {n m : String} {oe : Bool}
    {F : XFields β} {as : List α} {ks : List Xml} (ht : F.texts = 0) (g : ∀ a ∈ as, c.good a)
    (h : XField.encList n oe c as = some ks) :
    (XFields.elem (.list n oe c) F).dec (.elem m [] ks) (XFields.zero (.elem (.list n oe c) F)) =
      some (XField.ofList (XField.normList oe c as), F.zero) := by
  show (XFields.elem (.list n oe c) F).dec (.elem m [] ks) (.nil, F.zero) = _
  rw [dec_own _ _ _ _ _ _ ht fun y hy => by have := XField.encList_named h y hy; rwa [N.rename] at this]
  have : XField.decAll (XField.list n oe c).dec ks .nil = some (XField.ofList (XField.normList oe c as)) := by
    show XField.decAll (fun x old => (c.dec x c.zero).map (XField.push old)) ks PSlice.nil = _
    rw [XField.encList_round _ g h, XField.ofList_match]
  rw [this]; rfl

/-- The enclosing element of a list, read by a struct whose second field is the list. -/
theorem dec_list_second {α β γ : Type} {c : XCodec α} [L : XLawful c] [N : XNamed c] {n m : String} {oe : Bool}
    {f : XField γ} {F : XFields β} {as : List α} {ks : List Xml} (ht : F.texts = 0) (hne : n ≠ f.name)
    (g : ∀ a ∈ as, c.good a) (h : XField.encList n oe c as = some ks) :
    (XFields.elem f (.elem (.list n oe c) F)).dec (.elem m [] ks)
        (XFields.zero (.elem f (.elem (.list n oe c) F))) =
      some (f.zero, XField.ofList (XField.normList oe c as), F.zero) := by
  show (XFields.elem f (.elem (.list n oe c) F)).dec (.elem m [] ks)
    (f.zero, XFields.zero (.elem (.list n oe c) F)) = _
  rw [dec_others _ _ _ _ _ fun y hy => by
    have := XField.encList_named h y hy
    rw [N.rename] at this
    exact XField.isElem_ne this hne]
  rw [dec_list_first ht g h]; rfl

theorem xplain_string_norm (oe : Bool) (s : String) :
    (if oe && XText.string.empty s then XText.string.zero else XText.string.norm s) = sanitize s := by
  by_cases h : s = ""
  · subst h; cases oe <;> rfl
  · simp [XText.string, h]

/-! ### References written as text -/

theorem isElem_textKids (s : String) (n : String) : ∀ x ∈ textKids s, x.isElem n = false := by
  intro x hx
  unfold textKids at hx
  split at hx
  · simp at hx
  · simp at hx; subst hx; rfl

theorem setKid_text {β : Type} (F : XFields β) (s : String) (b : β) : F.setKid (.text s) b = some b := by
  induction F with
  | nil => rfl
  | elem f F ih => simp [XFields.setKid, Xml.isElem, ih]
  | _ => simp_all [XFields.setKid]

theorem decKids_textKids {β : Type} (F : XFields β) (s : String) (b : β) :
    XField.decAll F.setKid (textKids s) b = some b := by
  unfold textKids
  split
  · rfl
  · rw [XField.decAll_single, setKid_text]

theorem trimChars_nil : Xml.trimChars [] = [] := rfl

theorem trim_empty : trim "" = "" := by decide

/-- An IKEv2 type is read back. -/
theorem xikev2_lawful {σ β : Type} (F : XFields β) (toP : σ → BOMReference × β) (ofP : BOMReference × β → σ)
    (isRef : β → Bool) [L : XFieldsLawful F] (h : ∀ b, toP (ofP b) = b)
    (h1 : F.attrNames.Nodup) (h2 : F.elemNames.Nodup) (h3 : F.texts = 0) (hz : isRef F.zero = true) :
    XLawful (X.ikev2 F toP ofP isRef) where
  round n v x g he := by
    by_cases hr : (toP v).1.val = ""
    · simp only [X.ikev2, hr, ne_eq, not_true, if_false, XCodec.struct] at he g ⊢
      obtain ⟨ks, hk, e⟩ := Option.map_eq_some_iff.1 he
      simp only [Option.some.injEq] at e; subst e
      have hk : F.encKids (toP v).2 = some ks := hk
      obtain ⟨b₁, b₂, e1, e2, e3⟩ := L.round h1 h2 (by omega) (toP v).2 ks (g trivial) hk
      rw [F.setText_of_none h3] at e3
      have hd : (XFields.chardata F).dec (.elem n ((XFields.skip (⟨""⟩ : BOMReference) F).encAttrs (toP v)) ks)
          ("", F.zero) = some ("", F.norm (toP v).2) := by
        simp only [XFields.dec, Xml.attrs, Xml.kids]
        rw [decAttrs_pass (F := F) (fun _ _ _ => rfl)]
        have e1 : F.decAttrs ((XFields.skip (⟨""⟩ : BOMReference) F).encAttrs (toP v)) F.zero = some b₁ := e1
        rw [e1]
        simp only [Option.map_some]
        rw [decKids_pass (F := F) (fun _ _ _ => rfl), e2]
        simp [XFields.setText, L.notext _ ks h3 hk, e3]
      rw [hd]
      simp [trim_empty, h]
    · simp only [X.ikev2, hr, ne_eq, not_false_iff, if_true, Option.some.injEq] at he ⊢
      subst he
      have hd : (XFields.chardata F).dec (.elem n [] (textKids (sanitize (toP v).1.val))) ("", F.zero) =
          some (sanitize (toP v).1.val, F.zero) := by
        simp only [XFields.dec, Xml.attrs, Xml.kids, XFields.decAttrs]
        rw [decKids_textKids]
        simp [XFields.setText]
      rw [hd]
      simp only [hz, and_true, h]
      split
      · rfl
      · rename_i ht
        have ht : trim (sanitize (toP v).1.val) = "" := by simpa using ht
        rw [ht]
  named n v x he := by
    simp only [X.ikev2] at he ⊢
    split at he
    · simp only [Option.some.injEq] at he; subst he; simp [Xml.isElem]
    · simp only [XCodec.struct] at he
      obtain ⟨ks, hk, e⟩ := Option.map_eq_some_iff.1 he
      simp only [Option.some.injEq] at e; subst e
      simp [Xml.isElem]
  writes n v o he := by
    simp only [X.ikev2] at he ⊢
    split at he
    · simp only [Option.some.injEq] at he; subst he; rfl
    · simp only [XCodec.struct] at he
      obtain ⟨ks, hk, e⟩ := Option.map_eq_some_iff.1 he
      subst e; rfl

theorem xikev2_named {σ β : Type} (F : XFields β) (toP : σ → BOMReference × β) (ofP : BOMReference × β → σ)
    (isRef : β → Bool) : XNamed (X.ikev2 F toP ofP isRef) := ⟨fun _ => rfl⟩

/-! ### Contents of data flows -/

theorem spliced_append {known : List String} {stop : String} : ∀ (xs ys : List Xml),
    X.spliced known stop (xs ++ ys) =
      (X.spliced known stop xs).bind fun as => (X.spliced known stop ys).map (as ++ ·)
  | [], ys => by simp [X.spliced]
  | x :: xs, ys => by
    simp only [List.cons_append, X.spliced, spliced_append xs ys]
    cases X.spliceOne known stop x <;> cases X.spliced known stop xs <;>
      cases X.spliced known stop ys <;> simp

theorem spliced_known {known : List String} {stop : String} : ∀ (xs : List Xml),
    (∀ x ∈ xs, ∃ n ∈ known, x.isElem n = true) → X.spliced known stop xs = some xs
  | [], _ => by simp [X.spliced]
  | x :: xs, h => by
    obtain ⟨n, hn, hx⟩ := h x (by simp)
    obtain ⟨as, ks, rfl⟩ := Xml.isElem_elim hx
    simp only [X.spliced, X.spliceOne, hn, if_true, spliced_known xs fun y hy => h y (by simp [hy])]
    rfl

theorem urls_round (name : String) (us : List String) :
    X.urls name (us.map fun u => .elem "url" [] (textKids (sanitize u))) = some (us.map sanitize) := by
  unfold X.urls
  rw [spliced_known]
  · simp only [Option.map_some, List.map_map, Option.some.injEq]
    exact List.map_congr_left fun u _ => by simp [Xml.kids, textOf_textKids]
  · intro x hx
    obtain ⟨u, -, rfl⟩ := List.mem_map.1 hx
    exact ⟨"url", by simp, by simp [Xml.isElem]⟩

theorem lastAttr_unlessEmpty (n : String) (s : String) : X.lastAttr n (X.attrUnlessEmpty n s) "" = sanitize s := by
  unfold X.attrUnlessEmpty
  split
  · simp [X.lastAttr]
  · rename_i h
    have : s = "" := by simpa using h
    subst this; rfl

end Verif
