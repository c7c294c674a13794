import Verif.Xml.Blind
import Verif.Xml.Total
import Verif.Xml.SchemaLaws
import Verif.Spec.XmlRefused

/-!
# Which elements of the form that a schema declares are refused: the combinators
-/

namespace Verif

set_option linter.unusedSectionVars false
set_option linter.unusedVariables false

open Xml (trim trimChars textOf)

variable [XFloatIO]

/-! ## Texts -/

theorem bad_bool (s : String) : XText.bool.dec s = none ↔ XScalar.bool.Bad s := by
  simp only [XText.bool, XScalar.Bad]
  by_cases h : s = ""
  · simp [h]
  · simp only [h, if_false, ne_eq, not_false_eq_true, true_and]
    split
    · rename_i h'
      simp only [List.mem_cons, List.not_mem_nil, or_false] at h'
      simp only [reduceCtorEq, List.mem_cons, List.not_mem_nil, or_false, false_iff, Classical.not_not]
      rcases h' with h' | h' | h' | h' | h' | h' <;> simp [h']
    · rename_i h'
      split
      · rename_i h''
        simp only [List.mem_cons, List.not_mem_nil, or_false] at h''
        simp only [reduceCtorEq, List.mem_cons, List.not_mem_nil, or_false, false_iff, Classical.not_not]
        rcases h'' with h'' | h'' | h'' | h'' | h'' | h'' <;> simp [h'']
      · rename_i h''
        simp only [List.mem_cons, List.not_mem_nil, or_false, not_or] at h' h''
        simp only [true_iff, List.mem_cons, List.not_mem_nil, or_false, not_or]
        exact ⟨h'.1, h'.2.1, h'.2.2.1, h'.2.2.2.1, h'.2.2.2.2.1, h'.2.2.2.2.2, h''.1, h''.2.1, h''.2.2.1, h''.2.2.2.1,
          h''.2.2.2.2.1, h''.2.2.2.2.2⟩

theorem digitChar_iff_range (c : Char) : isDigitChar c = true ↔ '0' ≤ c ∧ c ≤ '9' := by
  simp [isDigitChar]

theorem parseNat_eq (ds : List Char) (n : Nat) :
    JCodec.parseNat ds = some n ↔ ds ≠ [] ∧ (∀ c ∈ ds, '0' ≤ c ∧ c ≤ '9') ∧ n = decimalValue ds := by
  have e : ofDigits (ds.map charVal) = decimalValue ds := by
    simp only [ofDigits, decimalValue, List.foldl_map]; rfl
  simp only [JCodec.parseNat, List.all_eq_true, digitChar_iff_range, e]
  split
  · rename_i h
    simp only [Option.some.injEq]
    exact ⟨fun h' => ⟨h.1, h.2, h'.symm⟩, fun h' => h'.2.2.symm⟩
  · rename_i h
    simp only [reduceCtorEq, false_iff]
    exact fun h' => h ⟨h'.1, h'.2.1⟩

theorem parseInt_isSome (cs : List Char) (i : Int) : XText.parseInt cs = some i ↔ InInt64 i ∧ IsDecimal cs i := by
  have key : ∀ ds (f : Nat → Int), ((JCodec.parseNat ds).bind fun n => if InInt64 (f n) then some (f n) else none) = some i ↔
      InInt64 i ∧ ds ≠ [] ∧ (∀ c ∈ ds, '0' ≤ c ∧ c ≤ '9') ∧ i = f (decimalValue ds) := by
    intro ds f
    rw [Option.bind_eq_some_iff]
    constructor
    · rintro ⟨n, hn, h⟩
      split at h
      · rename_i hi
        cases h
        obtain ⟨h₁, h₂, rfl⟩ := (parseNat_eq ds n).1 hn
        exact ⟨hi, h₁, h₂, rfl⟩
      · cases h
    · rintro ⟨hi, h₁, h₂, rfl⟩
      exact ⟨_, (parseNat_eq ds _).2 ⟨h₁, h₂, rfl⟩, if_pos hi⟩
  have nodig : ∀ c : Char, c = '+' ∨ c = '-' → ¬ ('0' ≤ c ∧ c ≤ '9') := by
    rintro c (rfl | rfl) <;> decide
  match cs with
  | [] =>
    simp only [XText.parseInt, JCodec.parseInt, IsDecimal]
    rw [key [] (fun n => (n : Int))]
    constructor
    · rintro ⟨_, h, _⟩; exact absurd rfl h
    · rintro ⟨_, ds, h, _, ⟨h' | h', _⟩ | ⟨h', _⟩⟩
      · exact absurd h'.symm h
      · cases h'
      · cases h'
  | c :: ds =>
    by_cases hp : c = '+'
    · subst hp
      simp only [XText.parseInt, IsDecimal]
      rw [key ds (fun n => (n : Int))]
      constructor
      · rintro ⟨hi, h₁, h₂, rfl⟩
        exact ⟨hi, ds, h₁, h₂, .inl ⟨.inr rfl, rfl⟩⟩
      · rintro ⟨hi, ds', h₁, h₂, ⟨h' | h', e⟩ | ⟨h', _⟩⟩
        · subst h'; exact absurd (h₂ '+' (by simp)) (nodig _ (.inl rfl))
        · cases h'; exact ⟨hi, h₁, h₂, e⟩
        · cases h'
    · by_cases hm : c = '-'
      · subst hm
        show JCodec.parseInt ('-' :: ds) = some i ↔ _
        simp only [JCodec.parseInt, IsDecimal]
        rw [key ds (fun n => -(n : Int))]
        constructor
        · rintro ⟨hi, h₁, h₂, rfl⟩
          exact ⟨hi, ds, h₁, h₂, .inr ⟨rfl, rfl⟩⟩
        · rintro ⟨hi, ds', h₁, h₂, ⟨h' | h', e⟩ | ⟨h', e⟩⟩
          · subst h'; exact absurd (h₂ '-' (by simp)) (nodig _ (.inr rfl))
          · cases h'
          · cases h'; exact ⟨hi, h₁, h₂, e⟩
      · have e : XText.parseInt (c :: ds) =
            ((JCodec.parseNat (c :: ds)).bind fun n => if InInt64 n then some (n : Int) else none) := by
          simp only [XText.parseInt]
          split
          · rename_i h; cases h; exact absurd rfl hp
          · simp only [JCodec.parseInt]
            split
            · rename_i h; cases h; exact absurd rfl hm
            · rfl
        rw [e, key (c :: ds) (fun n => (n : Int))]
        constructor
        · rintro ⟨hi, h₁, h₂, rfl⟩
          exact ⟨hi, c :: ds, h₁, h₂, .inl ⟨.inl rfl, rfl⟩⟩
        · rintro ⟨hi, ds', h₁, h₂, ⟨h' | h', e⟩ | ⟨h', e⟩⟩
          · subst h'; exact ⟨hi, h₁, h₂, e⟩
          · cases h'; exact absurd rfl hp
          · cases h'; exact absurd rfl hm

theorem bad_int (s : String) : XText.int.dec s = none ↔ XScalar.int.Bad s := by
  simp only [XText.int, XScalar.Bad]
  by_cases h : s = ""
  · simp [h]
  · simp only [h, if_false, ne_eq, not_false_eq_true, true_and]
    have e : (trim s).toList = trimChars s.toList := by simp [trim]
    rw [e, Option.eq_none_iff_forall_not_mem]
    constructor
    · rintro h ⟨i, h₁, h₂, h₃⟩
      exact h i ((parseInt_isSome _ _).2 ⟨⟨h₁, h₂⟩, h₃⟩)
    · intro h i hi
      obtain ⟨h₁, h₂⟩ := (parseInt_isSome _ _).1 hi
      exact h ⟨i, h₁.1, h₁.2, h₂⟩

theorem bad_f32 (s : String) : XText.f32.dec s = none ↔ XScalar.float32.Bad s := by
  simp only [XText.f32, XScalar.Bad]
  by_cases h : s = "" <;> simp [h]

theorem bad_f64 (s : String) : XText.f64.dec s = none ↔ XScalar.float64.Bad s := by
  simp only [XText.f64, XScalar.Bad]
  by_cases h : s = "" <;> simp [h]

/-! ## Elements -/

/-- An element called `m` in an element at place `p` is refused. -/
def RefusedAt (p : XPlace) (m : String) (x : Xml) : Prop :=
  (∃ k, (m, k) ∈ p.scalarElems ∧ k.Bad (textOf x.kids)) ∨ ∃ q, (m, q) ∈ p.content.els ∧ XRefused q x

theorem refused_iff {p : XPlace} {n : String} {as : List (String × String)} {ks : List Xml} :
    XRefused p (.elem n as ks) ↔ (∃ kv ∈ as, ∃ k, (kv.1, k) ∈ p.scalarAttrs ∧ k.Bad kv.2) ∨
      ∃ x ∈ ks, ∃ m, x.isElem m = true ∧ RefusedAt p m x := by
  constructor
  · intro h
    cases h with
    | attr h₁ h₂ h₃ => exact .inl ⟨_, h₂, _, h₁, h₃⟩
    | elem h₁ h₂ h₃ => exact .inr ⟨_, h₂, _, by simp [Xml.isElem], .inl ⟨_, h₁, h₃⟩⟩
    | inside h₁ h₂ h₃ => exact .inr ⟨_, h₂, _, by simp [Xml.isElem], .inr ⟨_, h₁, h₃⟩⟩
  · rintro (⟨⟨a, s⟩, h₂, k, h₁, h₃⟩ | ⟨x, hx, m, hm, h⟩)
    · exact .attr h₁ h₂ h₃
    · cases x with
      | text s => cases hm
      | elem n' bs ls =>
        simp only [Xml.isElem, decide_eq_true_eq] at hm
        subst hm
        rcases h with ⟨k, h₁, h₃⟩ | ⟨q, h₁, h₃⟩
        · exact .elem h₁ hx h₃
        · exact .inside h₁ hx h₃

/-- Places at which nothing is a number or a boolean, at any depth. -/
def XPlace.calm : XPlace → Bool
  | .algorithmProperties | .annotation | .annotations | .annotatorChoice | .assessor | .assessors | .attestation
  | .attestationMap | .attestations | .bom | .callstack | .co2Measure | .component | .componentEvidence | .components
  | .confidence | .conformance | .considerations | .cryptoProperties | .cwes | .declarations | .encr
  | .energyConsumption | .energyConsumptions | .energyProvider | .environmentalConsiderations | .formula | .formulation
  | .frames | .framesFrame | .identity | .ikev2TransformTypes | .ke | .metadata | .methods | .methodsMethod | .modelCard
  | .pedigree | .protocolProperties | .rating | .ratings | .relatedCryptoMaterialProperties | .service | .services
  | .swid | .targets | .task | .tasks | .tools | .volume | .vulnerabilities | .vulnerability | .workflow | .workflows
  | .workspace | .workspaces => false
  | _ => true

omit [XFloatIO] in
theorem calm_closed (p : XPlace) :
    (!p.calm || p.scalarAttrs.isEmpty && p.scalarElems.isEmpty && p.content.els.all fun e => e.2.calm) = true := by
  cases p <;> rfl

theorem calm_not_refused {p : XPlace} {x : Xml} (h : XRefused p x) : p.calm = false := by
  induction h with
  | @attr p _ _ _ _ _ _ h _ _ =>
    have := calm_closed p
    cases hc : p.calm
    · rfl
    · simp only [hc, Bool.not_true, Bool.false_or, Bool.and_eq_true, List.isEmpty_iff] at this
      rw [this.1.1] at h; cases h
  | @elem p _ _ _ _ _ _ _ h _ _ =>
    have := calm_closed p
    cases hc : p.calm
    · rfl
    · simp only [hc, Bool.not_true, Bool.false_or, Bool.and_eq_true, List.isEmpty_iff] at this
      rw [this.1.2] at h; cases h
  | @inside p q _ _ _ _ _ _ h _ _ ih =>
    have := calm_closed p
    cases hc : p.calm
    · rfl
    · simp only [hc, Bool.not_true, Bool.false_or, Bool.and_eq_true, List.isEmpty_iff, List.all_eq_true] at this
      rw [this.2 _ h] at ih; cases ih

/-- The place of the elements with this name. -/
def XPlace.child (p : XPlace) (m : String) : Option XPlace := (p.content.els.find? fun e => e.1 == m).map (·.2)

omit [XFloatIO] in
/-- Elements with the same name in the same element are at the same place. -/
theorem child_all (p : XPlace) : (p.content.els.all fun e => p.child e.1 == some e.2) = true := by
  cases p <;> rfl

omit [XFloatIO] in
theorem Content.Matches.els {v : Int} {ok : XPlace → Xml → Prop} {a : Content} {l : List Xml} (h : a.Matches v ok l) :
    ∀ x ∈ l, ∃ e ∈ a.els, x.isElem e.1 = true ∧ ok e.2 x := by
  induction h with
  | empty => simp
  | el h h' =>
    intro x hx; simp only [List.mem_singleton] at hx; subst hx; exact ⟨(_, _), List.mem_singleton.mpr rfl, h, h'⟩
  | seq _ _ ih ih' =>
    intro x hx
    rcases List.mem_append.mp hx with hx | hx
    · obtain ⟨e, he, h⟩ := ih x hx; exact ⟨e, by simp [Content.els, he], h⟩
    · obtain ⟨e, he, h⟩ := ih' x hx; exact ⟨e, by simp [Content.els, he], h⟩
  | left _ ih => intro x hx; obtain ⟨e, he, h⟩ := ih x hx; exact ⟨e, by simp [Content.els, he], h⟩
  | right _ ih => intro x hx; obtain ⟨e, he, h⟩ := ih x hx; exact ⟨e, by simp [Content.els, he], h⟩
  | optNone => simp
  | optSome _ ih => exact ih
  | manyNil => simp
  | manyCons _ _ ih ih' =>
    intro x hx
    rcases List.mem_append.mp hx with hx | hx
    · exact ih x hx
    · exact ih' x hx
  | some _ _ ih ih' =>
    intro x hx
    rcases List.mem_append.mp hx with hx | hx
    · exact ih x hx
    · exact ih' x hx
  | old _ _ ih => intro x hx; obtain ⟨e, he, h⟩ := ih x hx; exact ⟨e, by simp [Content.els, he], h⟩
  | new _ _ ih => intro x hx; obtain ⟨e, he, h⟩ := ih x hx; exact ⟨e, by simp [Content.els, he], h⟩

omit [XFloatIO] in
/-- The elements in an element of the form declared for a place. -/
theorem XValid.kid {v : Int} {p : XPlace} {n : String} {as : List (String × String)} {ks : List Xml}
    (h : XValid v p (.elem n as ks)) {x : Xml} (hx : x ∈ ks) {m : String} (hm : x.isElem m = true) :
    ∃ q, (m, q) ∈ p.content.els ∧ XValid v q x := by
  cases h with
  | mk _ _ h =>
    have : x ∈ Xml.elements ks := by
      cases x with
      | text s => cases hm
      | elem n as ks => simp [Xml.elements, hx]
    obtain ⟨⟨m', q⟩, he, hm', hq⟩ := h.els x this
    have : m = m' := by
      cases x with
      | text s => cases hm
      | elem n as ks => simp only [Xml.isElem, decide_eq_true_eq] at hm hm'; rw [← hm, ← hm']
    subst this
    exact ⟨q, he, hq⟩

omit [XFloatIO] in
theorem child_of_mem {p q : XPlace} {m : String} (h : (m, q) ∈ p.content.els) : p.child m = some q := by
  have := child_all p
  rw [List.all_eq_true] at this
  exact eq_of_beq (this _ h)

omit [XFloatIO] in
theorem mem_of_child {p q : XPlace} {m : String} (h : p.child m = some q) : (m, q) ∈ p.content.els := by
  simp only [XPlace.child, Option.map_eq_some_iff] at h
  obtain ⟨⟨m', q'⟩, h, rfl⟩ := h
  have := List.find?_some h
  simp only [beq_iff_eq] at this
  subst this
  exact List.mem_of_find?_eq_some h

theorem refusedAt_iff {p q : XPlace} {m : String} {x : Xml} (h : p.child m = some q) :
    RefusedAt p m x ↔ (∃ k, (m, k) ∈ p.scalarElems ∧ k.Bad (textOf x.kids)) ∨ XRefused q x := by
  simp only [RefusedAt]
  constructor
  · rintro (h' | ⟨q', h₁, h₂⟩)
    · exact .inl h'
    · have := child_of_mem h₁
      rw [h] at this; cases this
      exact .inr h₂
  · rintro (h' | h')
    · exact .inl h'
    · exact .inr ⟨q, mem_of_child h, h'⟩

/-- Elements of the form declared for the place, nested less than `n` deep, are refused exactly if something in them
is not the number or boolean it is taken as. -/
def XReads {α : Type} (n : Nat) (c : XCodec α) (p : XPlace) : Prop :=
  ∀ v x a, x.depth < n → XValid v p x → (c.dec x a = none ↔ XRefused p x)

/-- The same for the fields of a struct. -/
def FReads {β : Type} (n : Nat) (F : XFields β) (p : XPlace) : Prop :=
  ∀ v x b, x.depth < n → XValid v p x → (F.dec x b = none ↔ XRefused p x)

/-- The same for the elements that a field of a struct at place `p` is read from. -/
def EReads {α : Type} (n : Nat) (p : XPlace) (f : XField α) : Prop :=
  ∀ v q x a, x.depth < n → x.isElem f.name = true → p.child f.name = some q → XValid v q x →
    (f.dec x a = none ↔ RefusedAt p f.name x)

/-- The same for an attribute. -/
def AReads {α : Type} (p : XPlace) (nm : String) (c : XText α) : Prop :=
  (p.attrs.any fun d => d.name == nm) = true → ∀ s, c.dec s = none ↔ ∃ k, (nm, k) ∈ p.scalarAttrs ∧ k.Bad s

/-- The same for all fields of a struct. -/
def XFields.ReadsAt (n : Nat) (p : XPlace) : {β : Type} → XFields β → Prop
  | _, .nil => True
  | _, .skip _ F => F.ReadsAt n p
  | _, .attr nm _ c F => AReads p nm c ∧ F.ReadsAt n p
  | _, .attrPtr nm c F => AReads p nm c ∧ F.ReadsAt n p
  | _, .chardata F => F.ReadsAt n p
  | _, .elem f F => EReads n p f ∧ F.ReadsAt n p

/-- The struct has fields for everything that is a number or boolean at the place. -/
def XFields.covers {β : Type} (F : XFields β) (p : XPlace) : Bool :=
  (p.scalarAttrs.all fun e => F.attrNames.contains e.1) &&
    p.content.els.all fun e => F.elemNames.contains e.1 || (e.2.calm && !(p.scalarElems.any fun s => s.1 == e.1))

theorem XReads.mono {α : Type} {m n : Nat} {c : XCodec α} {p : XPlace} (h : XReads n c p) (hm : m ≤ n) :
    XReads m c p := fun v x a hx => h v x a (by omega)

theorem readsAt_attr {n : Nat} {p : XPlace} (kv : String × String)
    (hd : (p.attrs.any fun d => d.name == kv.1) = true) : ∀ {β : Type} (F : XFields β) (b : β), F.ReadsAt n p →
      (kv.1 ∈ F.attrNames → (F.setAttr kv b = none ↔ ∃ k, (kv.1, k) ∈ p.scalarAttrs ∧ k.Bad kv.2)) ∧
        (kv.1 ∉ F.attrNames → F.setAttr kv b ≠ none)
  | _, .nil, b, _ => ⟨fun h => (by cases h), fun _ h => (by cases h)⟩
  | _, .skip _ F, b, h => by
    simp only [XFields.setAttr, XFields.attrNames, ne_eq, Option.map_eq_none_iff]
    exact readsAt_attr kv hd F _ h
  | _, .chardata F, b, h => by
    simp only [XFields.setAttr, XFields.attrNames, ne_eq, Option.map_eq_none_iff]
    exact readsAt_attr kv hd F _ h
  | _, .elem _ F, b, h => by
    simp only [XFields.setAttr, XFields.attrNames, ne_eq, Option.map_eq_none_iff]
    exact readsAt_attr kv hd F _ h.2
  | _, .attr nm _ c F, b, h => by
    simp only [XFields.setAttr, XFields.attrNames, List.mem_cons]
    by_cases e : kv.1 = nm
    · simp only [e, if_true, true_or, not_true_eq_false, ne_eq, Option.map_eq_none_iff, true_imp_iff, false_imp_iff,
        and_true]
      rw [e] at hd
      exact h.1 hd kv.2
    · simp only [e, if_false, false_or, ne_eq, Option.map_eq_none_iff]
      exact readsAt_attr kv hd F _ h.2
  | _, .attrPtr nm c F, b, h => by
    simp only [XFields.setAttr, XFields.attrNames, List.mem_cons]
    by_cases e : kv.1 = nm
    · simp only [e, if_true, true_or, not_true_eq_false, ne_eq, Option.map_eq_none_iff, true_imp_iff, false_imp_iff,
        and_true]
      rw [e] at hd
      exact h.1 hd kv.2
    · simp only [e, if_false, false_or, ne_eq, Option.map_eq_none_iff]
      exact readsAt_attr kv hd F _ h.2

theorem isElem_same {x : Xml} {m m' : String} (h : x.isElem m = true) (h' : x.isElem m' = true) : m = m' := by
  cases x with
  | text s => cases h
  | elem n as ks => simp only [Xml.isElem, decide_eq_true_eq] at h h'; rw [← h, ← h']

theorem readsAt_kid {n : Nat} {p q : XPlace} {v : Int} {x : Xml} {m : String} (hx : x.depth < n)
    (hm : x.isElem m = true) (hq : p.child m = some q) (hv : XValid v q x) : ∀ {β : Type} (F : XFields β) (b : β),
      F.ReadsAt n p →
      (m ∈ F.elemNames → (F.setKid x b = none ↔ RefusedAt p m x)) ∧ (m ∉ F.elemNames → F.setKid x b ≠ none)
  | _, .nil, b, _ => ⟨fun h => (by cases h), fun _ h => (by cases h)⟩
  | _, .skip _ F, b, h => by
    simp only [XFields.setKid, XFields.elemNames, ne_eq, Option.map_eq_none_iff]
    exact readsAt_kid hx hm hq hv F _ h
  | _, .chardata F, b, h => by
    simp only [XFields.setKid, XFields.elemNames, ne_eq, Option.map_eq_none_iff]
    exact readsAt_kid hx hm hq hv F _ h
  | _, .attr _ _ _ F, b, h => by
    simp only [XFields.setKid, XFields.elemNames, ne_eq, Option.map_eq_none_iff]
    exact readsAt_kid hx hm hq hv F _ h.2
  | _, .attrPtr _ _ F, b, h => by
    simp only [XFields.setKid, XFields.elemNames, ne_eq, Option.map_eq_none_iff]
    exact readsAt_kid hx hm hq hv F _ h.2
  | _, .elem f F, b, h => by
    simp only [XFields.setKid, XFields.elemNames, List.mem_cons]
    by_cases e : m = f.name
    · subst e
      simp only [hm, if_true, true_or, not_true_eq_false, ne_eq, Option.map_eq_none_iff, true_imp_iff, false_imp_iff,
        and_true]
      exact h.1 v q x _ hx hm hq hv
    · have hf : ¬ x.isElem f.name = true := fun h' => e (isElem_same hm h')
      rw [if_neg hf]
      simp only [e, false_or, ne_eq, Option.map_eq_none_iff]
      exact readsAt_kid hx hm hq hv F _ h.2

/-- Where a loop fails whose steps do not depend on what has been read so far. -/
theorem decAll_none {α : Type} {dec : Xml → α → Option α} (h : ∀ x a b, (dec x a).isSome = (dec x b).isSome) :
    ∀ xs a, XField.decAll dec xs a = none ↔ ∃ x ∈ xs, dec x a = none
  | [], a => by simp [XField.decAll]
  | x :: xs, a => by
    simp only [XField.decAll]
    cases ha : dec x a with
    | none => simp [ha]
    | some b =>
      rw [decAll_none h xs b]
      simp only [List.mem_cons, exists_eq_or_imp, ha, reduceCtorEq, false_or]
      have e : ∀ y, dec y b = none ↔ dec y a = none := fun y => by
        rw [← Option.isNone_iff_eq_none, ← Option.isNone_iff_eq_none, ← Option.not_isSome, ← Option.not_isSome, h y b a]
      simp only [e]

theorem decAttrs_none {β : Type} (F : XFields β) [L : XFieldsBlind F] : ∀ kvs b,
    F.decAttrs kvs b = none ↔ ∃ kv ∈ kvs, F.setAttr kv b = none
  | [], b => by simp [XFields.decAttrs]
  | kv :: kvs, a => by
    simp only [XFields.decAttrs]
    cases ha : F.setAttr kv a with
    | none => simp [ha]
    | some b =>
      rw [decAttrs_none F kvs b]
      simp only [List.mem_cons, exists_eq_or_imp, ha, reduceCtorEq, false_or]
      have e : ∀ y, F.setAttr y b = none ↔ F.setAttr y a = none := fun y => by
        rw [← Option.isNone_iff_eq_none, ← Option.isNone_iff_eq_none, ← Option.not_isSome, ← Option.not_isSome,
          L.attr y b a]
      simp only [e]

theorem fields_dec_none {β : Type} (F : XFields β) [L : XFieldsBlind F] (x : Xml) (b : β) :
    F.dec x b = none ↔ (∃ kv ∈ x.attrs, F.setAttr kv b = none) ∨ ∃ k ∈ x.kids, F.setKid k b = none := by
  simp only [XFields.dec]
  cases ha : F.decAttrs x.attrs b with
  | none => simp only [true_iff]; exact .inl ((decAttrs_none F _ _).1 ha)
  | some b₁ =>
    have h₁ : ¬ ∃ kv ∈ x.attrs, F.setAttr kv b = none := fun h => by
      rw [(decAttrs_none F _ _).2 h] at ha; cases ha
    simp only [h₁, false_or]
    have e : ∀ y, F.setKid y b = none ↔ F.setKid y b₁ = none := fun y => by
      rw [← Option.isNone_iff_eq_none, ← Option.isNone_iff_eq_none, ← Option.not_isSome, ← Option.not_isSome,
        L.kid y b b₁]
    simp only [e]
    rw [← decAll_none L.kid]
    cases XField.decAll F.setKid x.kids b₁ <;> simp

theorem setKid_text_ne : ∀ {β : Type} (F : XFields β) (s : String) (b : β), F.setKid (.text s) b ≠ none
  | _, .nil, _, _ => by simp [XFields.setKid]
  | _, .skip _ F, s, b => by simpa [XFields.setKid] using setKid_text_ne F s b.2
  | _, .attr _ _ _ F, s, b => by simpa [XFields.setKid] using setKid_text_ne F s b.2
  | _, .attrPtr _ _ F, s, b => by simpa [XFields.setKid] using setKid_text_ne F s b.2
  | _, .chardata F, s, b => by simpa [XFields.setKid] using setKid_text_ne F s b.2
  | _, .elem f F, s, b => by simpa [XFields.setKid, Xml.isElem] using setKid_text_ne F s b.2

theorem depth_kid {n : String} {as : List (String × String)} {ks : List Xml} {x : Xml} (h : x ∈ ks) :
    x.depth < (Xml.elem n as ks).depth := by
  have : x.depth ≤ Xml.depthL ks := by
    induction ks with
    | nil => cases h
    | cons k ks ih =>
      simp only [Xml.depthL]
      rcases List.mem_cons.mp h with rfl | h
      · omega
      · have := ih h; omega
  simp only [Xml.depth]
  omega

/-- A struct is refused because of one of the numbers and booleans that it has fields for. -/
theorem freads {β : Type} {n : Nat} {p : XPlace} (F : XFields β) [L : XFieldsBlind F] (h : F.ReadsAt n p)
    (side : F.covers p = true) : FReads (n + 1) F p := by
  intro v x b hx hv
  simp only [XFields.covers, Bool.and_eq_true, List.all_eq_true, List.contains_eq_mem, decide_eq_true_eq,
    Bool.or_eq_true, Bool.not_eq_true', List.any_eq_false, beq_iff_eq] at side
  cases x with
  | text s => cases hv
  | elem name as ks =>
    rw [fields_dec_none, refused_iff]
    simp only [Xml.attrs, Xml.kids]
    refine or_congr ?_ ?_
    · have ha : ∀ kv ∈ as, (p.attrs.any fun d => d.name == kv.1) = true := by
        intro kv hkv
        cases hv with
        | mk ha _ _ =>
          obtain ⟨d, hd, e, _⟩ := ha.1 kv hkv
          rw [List.any_eq_true]
          exact ⟨d, hd, by simp [e]⟩
      constructor
      · rintro ⟨kv, hkv, hn⟩
        have := readsAt_attr kv (ha kv hkv) F b h
        by_cases hm : kv.1 ∈ F.attrNames
        · exact ⟨kv, hkv, (this.1 hm).1 hn⟩
        · exact absurd hn (this.2 hm)
      · rintro ⟨kv, hkv, k, hk, hb⟩
        exact ⟨kv, hkv, ((readsAt_attr kv (ha kv hkv) F b h).1 (side.1 _ hk)).2 ⟨k, hk, hb⟩⟩
    · constructor
      · rintro ⟨k, hk, hn⟩
        cases k with
        | text s => exact absurd hn (setKid_text_ne F s b)
        | elem m bs ls =>
          have hm : (Xml.elem m bs ls).isElem m = true := by simp [Xml.isElem]
          obtain ⟨q, hq, hv'⟩ := hv.kid hk hm
          have hd : (Xml.elem m bs ls).depth < n := by have := depth_kid (n := name) (as := as) hk; omega
          have := readsAt_kid hd hm (child_of_mem hq) hv' F b h
          by_cases hm' : m ∈ F.elemNames
          · exact ⟨_, hk, m, hm, (this.1 hm').1 hn⟩
          · exact absurd hn (this.2 hm')
      · rintro ⟨k, hk, m, hm, hr⟩
        obtain ⟨q, hq, hv'⟩ := hv.kid hk hm
        have hd : k.depth < n := by have := depth_kid (n := name) (as := as) hk; omega
        refine ⟨k, hk, ?_⟩
        rcases side.2 _ hq with hm' | ⟨hc, hs⟩
        · exact ((readsAt_kid hd hm (child_of_mem hq) hv' F b h).1 hm').2 hr
        · rw [refusedAt_iff (child_of_mem hq)] at hr
          rcases hr with ⟨s, hs', _⟩ | hr
          · exact absurd rfl (hs _ hs')
          · rw [calm_not_refused hr] at hc; cases hc

theorem xreads_struct {σ β : Type} {n : Nat} {p : XPlace} (F : XFields β) (toP : σ → β) (ofP : β → σ)
    [XFieldsBlind F] (h : F.ReadsAt n p) (side : F.covers p = true) : XReads (n + 1) (XCodec.struct F toP ofP) p := by
  intro v x a hx hv
  simp only [XCodec.struct, Option.map_eq_none_iff]
  exact freads F h side v x _ hx hv

/-- A place without numbers and booleans, read into a type that everything can be read into. -/
theorem xreads_calm {α : Type} {n : Nat} {p : XPlace} {c : XCodec α} [C : XTotal c] (side : p.calm = true) :
    XReads n c p := by
  intro v x a _ _
  have := C.total x a
  constructor
  · intro h; rw [h] at this; cases this
  · intro h; rw [calm_not_refused h] at side; cases side

/-! ## Fields -/

variable {n : Nat} {p : XPlace}

theorem ar_total {α : Type} {nm : String} {c : XText α} [C : XTextTotal c]
    (side : (p.scalarAttrs.any fun e => e.1 == nm) = false) : AReads p nm c := by
  intro _ s
  have := C.total s
  constructor
  · intro h; rw [h] at this; cases this
  · rintro ⟨k, hk, _⟩
    rw [List.any_eq_false] at side
    exact absurd (by simp) (side _ hk)

theorem ar_none {α : Type} {nm : String} {c : XText α} (side : (p.attrs.any fun d => d.name == nm) = false) :
    AReads p nm c := by
  intro h; rw [side] at h; cases h

theorem ar_scalar {α : Type} {nm : String} {c : XText α} {k : XScalar} (h : ∀ s, c.dec s = none ↔ k.Bad s)
    (side : (p.scalarAttrs.filter fun e => e.1 == nm) = [(nm, k)]) : AReads p nm c := by
  intro _ s
  rw [h]
  constructor
  · intro hb
    exact ⟨k, (List.mem_filter.mp (side ▸ List.mem_singleton.mpr rfl : (nm, k) ∈ p.scalarAttrs.filter _)).1, hb⟩
  · rintro ⟨k', hk, hb⟩
    have : (nm, k') ∈ p.scalarAttrs.filter fun e => e.1 == nm := List.mem_filter.mpr ⟨hk, by simp⟩
    rw [side, List.mem_singleton] at this
    cases this
    exact hb

/-- The name is none of the scalars of the place. -/
theorem no_scalar {m : String} (side : (p.scalarElems.any fun e => e.1 == m) = false) {x : Xml} :
    ¬ ∃ k, (m, k) ∈ p.scalarElems ∧ k.Bad (textOf x.kids) := by
  rintro ⟨k, hk, _⟩
  rw [List.any_eq_false] at side
  exact absurd (by simp) (side _ hk)

/-- A field of a name that the place does not have. -/
theorem er_none {α : Type} {f : XField α} (side : p.child f.name = none) : EReads n p f := by
  intro v q x a _ _ h; rw [side] at h; cases h

/-- Why one element is refused, as the codec for its type says. -/
theorem er_codec {α : Type} {f : XField α} {q : XPlace} {c : XCodec α'} (h : XReads n c q)
    (hd : ∀ x a, ∃ b, f.dec x a = none ↔ c.dec x b = none)
    (side : (p.child f.name == some q && !(p.scalarElems.any fun e => e.1 == f.name)) = true) : EReads n p f := by
  simp only [Bool.and_eq_true, beq_iff_eq, Bool.not_eq_true'] at side
  intro v q' x a hx hm hq hv
  rw [side.1] at hq; cases hq
  obtain ⟨b, hb⟩ := hd x a
  rw [hb, h v x b hx hv, refusedAt_iff side.1]
  simp only [no_scalar side.2, false_or]

theorem er_plain {α : Type} {m : String} {oe : Bool} {c : XCodec α} {q : XPlace} (h : XReads n c q)
    (side : (p.child m == some q && !(p.scalarElems.any fun e => e.1 == m)) = true) :
    EReads n p (.plain m oe c) := er_codec h (fun x a => ⟨a, Iff.rfl⟩) side

theorem er_ptr {α : Type} {m : String} {c : XCodec α} {q : XPlace} (h : XReads n c q)
    (side : (p.child m == some q && !(p.scalarElems.any fun e => e.1 == m)) = true) :
    EReads n p (.ptr m c) := er_codec h (fun x a => ⟨_, by simp only [XField.ptr, Option.map_eq_none_iff]; rfl⟩) side

theorem er_list {α : Type} {m : String} {oe : Bool} {c : XCodec α} {q : XPlace} (h : XReads n c q)
    (side : (p.child m == some q && !(p.scalarElems.any fun e => e.1 == m)) = true) :
    EReads n p (.list m oe c) := er_codec h (fun x a => ⟨_, by simp only [XField.list, Option.map_eq_none_iff]; rfl⟩) side

theorem er_slice {α : Type} {m : String} {c : XCodec (List α)} {q : XPlace} (h : XReads n c q)
    (side : (p.child m == some q && !(p.scalarElems.any fun e => e.1 == m)) = true) :
    EReads n p (.slice m c) := er_codec h (fun x a => ⟨_, by simp only [XField.slice, Option.map_eq_none_iff]; rfl⟩) side

/-- A field for a number or boolean. -/
theorem er_scalar {α : Type} {f : XField α} {c : XText α'} {k : XScalar} (h : ∀ s, c.dec s = none ↔ k.Bad s)
    (hd : ∀ x a, f.dec x a = none ↔ c.dec (textOf x.kids) = none)
    (side : p.child f.name = some .text ∧ (p.scalarElems.filter fun e => e.1 == f.name) = [(f.name, k)]) :
    EReads n p f := by
  intro v q x a hx hm hq hv
  rw [side.1] at hq; cases hq
  rw [hd, h, refusedAt_iff side.1]
  have hc : ¬ XRefused .text x := fun h => by have := calm_not_refused h; cases this
  simp only [hc, or_false]
  constructor
  · intro hb
    exact ⟨k, (List.mem_filter.mp (side.2 ▸ List.mem_singleton.mpr rfl :
      (f.name, k) ∈ p.scalarElems.filter fun e => e.1 == f.name)).1, hb⟩
  · rintro ⟨k', hk, hb⟩
    have : (f.name, k') ∈ p.scalarElems.filter fun e => e.1 == f.name := List.mem_filter.mpr ⟨hk, by simp⟩
    rw [side.2, List.mem_singleton] at this
    cases this
    exact hb

theorem er_plain_scalar {α : Type} {m : String} {oe : Bool} {c : XText α} {k : XScalar}
    (h : ∀ s, c.dec s = none ↔ k.Bad s)
    (side : p.child m = some .text ∧ (p.scalarElems.filter fun e => e.1 == m) = [(m, k)]) :
    EReads n p (.plain m oe (.simple c)) := er_scalar h (fun _ _ => Iff.rfl) side

theorem er_ptr_scalar {α : Type} {m : String} {c : XText α} {k : XScalar} (h : ∀ s, c.dec s = none ↔ k.Bad s)
    (side : p.child m = some .text ∧ (p.scalarElems.filter fun e => e.1 == m) = [(m, k)]) :
    EReads n p (.ptr m (.simple c)) :=
  er_scalar h (fun _ _ => by simp only [XField.ptr, XCodec.simple, Option.map_eq_none_iff]) side

theorem er_list_scalar {α : Type} {m : String} {oe : Bool} {c : XText α} {k : XScalar}
    (h : ∀ s, c.dec s = none ↔ k.Bad s)
    (side : p.child m = some .text ∧ (p.scalarElems.filter fun e => e.1 == m) = [(m, k)]) :
    EReads n p (.list m oe (.simple c)) :=
  er_scalar h (fun _ _ => by simp only [XField.list, XCodec.simple, Option.map_eq_none_iff]) side

/-- Nothing but the elements called `m` matters at this place. -/
def XPlace.onlyElem (q : XPlace) (m : String) : Bool :=
  q.scalarAttrs.isEmpty && (q.content.els.all fun e => e.1 == m || (e.2.calm && !(q.scalarElems.any fun s => s.1 == e.1)))

/-- The elements inside an enclosing element. -/
theorem er_nested {α : Type} {f g : XField α} {q : XPlace} (h : EReads n q g)
    (hd : ∀ x a, ∃ b, f.dec x a = none ↔ ∃ k ∈ x.kids, k.isElem g.name = true ∧ g.dec k b = none)
    (side : (p.child f.name == some q && !(p.scalarElems.any fun e => e.1 == f.name) && q.onlyElem g.name) = true) :
    EReads n p f := by
  simp only [XPlace.onlyElem, Bool.and_eq_true, beq_iff_eq, Bool.not_eq_true', List.isEmpty_iff, List.all_eq_true,
    Bool.or_eq_true, List.any_eq_false] at side
  obtain ⟨⟨hq, hs⟩, hsa, hse⟩ := side
  intro v q' x a hx hm hq' hv
  rw [hq] at hq'; cases hq'
  obtain ⟨b, hb⟩ := hd x a
  rw [hb, refusedAt_iff hq]
  have hs : ¬ ∃ k, (f.name, k) ∈ p.scalarElems ∧ k.Bad (textOf x.kids) := by
    rintro ⟨k, hk, _⟩
    exact absurd rfl (hs _ hk)
  simp only [hs, false_or]
  cases x with
  | text s => cases hv
  | elem name as ks =>
    rw [refused_iff, hsa]
    simp only [List.not_mem_nil, false_and, exists_false, and_false, false_or, Xml.kids]
    constructor
    · rintro ⟨k, hk, hg, hn⟩
      obtain ⟨q', hq', hv'⟩ := hv.kid hk hg
      have hd : k.depth < n := by have := depth_kid (n := name) (as := as) hk; omega
      exact ⟨k, hk, _, hg, (h v q' k b hd hg (child_of_mem hq') hv').1 hn⟩
    · rintro ⟨k, hk, m, hm, hr⟩
      obtain ⟨q', hq', hv'⟩ := hv.kid hk hm
      have hd : k.depth < n := by have := depth_kid (n := name) (as := as) hk; omega
      rcases hse _ hq' with rfl | ⟨hc, hs'⟩
      · exact ⟨k, hk, hm, (h v q' k b hd hm (child_of_mem hq') hv').2 hr⟩
      · rw [refusedAt_iff (child_of_mem hq')] at hr
        rcases hr with ⟨s, hs'', _⟩ | hr
        · exact absurd rfl (hs' _ hs'')
        · rw [calm_not_refused hr] at hc; cases hc

theorem er_nlist {α : Type} {m m' : String} {oe : Bool} {c : XCodec α} {q : XPlace}
    (h : EReads n q (XField.list m' oe c))
    (side : (p.child m == some q && !(p.scalarElems.any fun e => e.1 == m) && q.onlyElem m') = true) :
    EReads n p (.nlist m m' oe c) :=
  er_nested (f := .nlist m m' oe c) h (fun x a => ⟨a, by
    simp only [XField.nlist]
    rw [decAll_none (fun y a b => by
      simp only [XField.decInner]; split <;> simp only [Option.isSome_map, Option.isSome_some])]
    simp only [XField.decInner, XField.list]
    constructor
    · rintro ⟨k, hk, hn⟩
      split at hn
      · rename_i hm; exact ⟨k, hk, hm, by simpa using hn⟩
      · cases hn
    · rintro ⟨k, hk, hm, hn⟩
      exact ⟨k, hk, by rw [if_pos hm]; simpa using hn⟩⟩) side

theorem er_nptr {α : Type} {m m' : String} {c : XCodec α} [C : XBlind c] {q : XPlace}
    (h : EReads n q (XField.ptr m' c))
    (side : (p.child m == some q && !(p.scalarElems.any fun e => e.1 == m) && q.onlyElem m') = true) :
    EReads n p (.nptr m m' c) :=
  er_nested (f := .nptr m m' c) h (fun x a => ⟨a, by
    simp only [XField.nptr]
    rw [decAll_none (fun y a b => by
      split
      · simp only [Option.isSome_map]; exact C.blind y _ _
      · rfl)]
    simp only [XField.ptr]
    constructor
    · rintro ⟨k, hk, hn⟩
      split at hn
      · rename_i hm; exact ⟨k, hk, hm, by simpa using hn⟩
      · cases hn
    · rintro ⟨k, hk, hm, hn⟩
      exact ⟨k, hk, by rw [if_pos hm]; simpa using hn⟩⟩) side

/-! ## Structs, field by field -/

theorem ra_nil : XFields.nil.ReadsAt n p := trivial
theorem ra_skip {α β : Type} {z : α} {F : XFields β} (h : F.ReadsAt n p) : (XFields.skip z F).ReadsAt n p := h
theorem ra_chardata {β : Type} {F : XFields β} (h : F.ReadsAt n p) : (XFields.chardata F).ReadsAt n p := h
theorem ra_attr {α β : Type} {nm : String} {oe : Bool} {c : XText α} {F : XFields β} (ha : AReads p nm c)
    (h : F.ReadsAt n p) : (XFields.attr nm oe c F).ReadsAt n p := ⟨ha, h⟩
theorem ra_attrPtr {α β : Type} {nm : String} {c : XText α} {F : XFields β} (ha : AReads p nm c)
    (h : F.ReadsAt n p) : (XFields.attrPtr nm c F).ReadsAt n p := ⟨ha, h⟩
theorem ra_elem {α β : Type} {f : XField α} {F : XFields β} (ha : EReads n p f)
    (h : F.ReadsAt n p) : (XFields.elem f F).ReadsAt n p := ⟨ha, h⟩

theorem xreads_ikev2 {σ β : Type} {F : XFields β} [XFieldsBlind F] {toP : σ → BOMReference × β}
    {ofP : BOMReference × β → σ} {isRef : β → Bool} (h : F.ReadsAt n p) (side : F.covers p = true) :
    XReads (n + 1) (X.ikev2 F toP ofP isRef) p := by
  intro v x a hx hv
  rw [← freads (XFields.chardata F) (ra_chardata h) side v x ("", F.zero) hx hv]
  simp only [X.ikev2]
  split
  · rename_i e; simp [e]
  · rename_i e
    rw [e]
    split <;> simp

end Verif
