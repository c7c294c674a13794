import Verif.Xml.Carry
import Verif.Xml.StructLaws
import Verif.Xml.ReadLaws
import Verif.Xml.SpaceLaws

/-!
# What is read is written again: types with methods of their own
-/

namespace Verif

variable [XFloatIO]

set_option linter.unusedSectionVars false
set_option linter.unusedVariables false

open Xml (trim trimChars textOf textKids sanitize)

/-! ## Values that `omitempty` leaves out -/

theorem tl_thirdParty {n : Nat} {oe : Bool} : TLeft n .assessor "thirdParty" oe XText.bool := fun _ =>
  ⟨rfl, fun v x a hx hd he xs ys ht => .zero (.inl ⟨rfl, rfl, by
    rw [hd]; simp only [XText.bool] at he; cases a <;> simp_all⟩) ht⟩

theorem tl_cwe {n : Nat} {oe : Bool} : TLeft n .cwes "cwe" oe XText.int := fun _ =>
  ⟨rfl, fun v x a hx hd he xs ys ht => .zero (.inr ⟨rfl, rfl, by
    rw [hd]; simp only [XText.int, decide_eq_true_eq] at he; rw [he]⟩) ht⟩

theorem az_version {oe : Bool} : AZero .bom "version" oe XText.int := fun _ =>
  .inr ⟨⟨.int, List.mem_singleton.mpr rfl⟩, .inr (.inl rfl)⟩

/-! ## Structs of which nothing is read -/

/-- No attribute and no element of the place is one of the struct's. -/
def XFields.apart {β : Type} (F : XFields β) (q : XPlace) : Bool :=
  (q.attrs.all fun d => !F.attrNames.contains d.name) && (q.content.els.all fun e => !F.elemNames.contains e.1)

theorem setAttr_apart {kv : String × String} : ∀ {β : Type} (F : XFields β) (b : β), kv.1 ∉ F.attrNames →
    F.setAttr kv b = some b
  | _, .nil, b, _ => rfl
  | _, .skip _ F, b, h => by simp [XFields.setAttr, setAttr_apart F b.2 h]
  | _, .chardata F, b, h => by simp [XFields.setAttr, setAttr_apart F b.2 h]
  | _, .elem f F, b, h => by simp [XFields.setAttr, setAttr_apart F b.2 h]
  | _, .attr nm oe c F, b, h => by
    simp only [XFields.attrNames, List.mem_cons, not_or] at h
    simp [XFields.setAttr, h.1, setAttr_apart F b.2 h.2]
  | _, .attrPtr nm c F, b, h => by
    simp only [XFields.attrNames, List.mem_cons, not_or] at h
    simp [XFields.setAttr, h.1, setAttr_apart F b.2 h.2]

theorem setKid_apart {x : Xml} : ∀ {β : Type} (F : XFields β) (b : β), (∀ m ∈ F.elemNames, x.isElem m = false) →
    F.setKid x b = some b
  | _, .nil, b, _ => rfl
  | _, .skip _ F, b, h => by simp [XFields.setKid, setKid_apart F b.2 h]
  | _, .chardata F, b, h => by simp [XFields.setKid, setKid_apart F b.2 h]
  | _, .attr _ _ _ F, b, h => by simp [XFields.setKid, setKid_apart F b.2 h]
  | _, .attrPtr _ _ F, b, h => by simp [XFields.setKid, setKid_apart F b.2 h]
  | _, .elem f F, b, h => by
    simp only [XFields.elemNames, List.mem_cons, forall_eq_or_imp] at h
    simp [XFields.setKid, h.1, setKid_apart F b.2 h.2]

theorem decAttrs_apart {β : Type} {F : XFields β} : ∀ {as : List (String × String)} {b : β},
    (∀ kv ∈ as, kv.1 ∉ F.attrNames) → F.decAttrs as b = some b
  | [], b, _ => rfl
  | kv :: as, b, h => by
    simp only [XFields.decAttrs, setAttr_apart F b (h kv (by simp))]
    exact decAttrs_apart fun kv hkv => h kv (by simp [hkv])

theorem decKids_apart {β : Type} {F : XFields β} : ∀ {ks : List Xml} {b : β},
    (∀ x ∈ ks, ∀ m ∈ F.elemNames, x.isElem m = false) → XField.decAll F.setKid ks b = some b
  | [], b, _ => rfl
  | x :: ks, b, h => by
    simp only [XField.decAll, setKid_apart F b (h x (by simp))]
    exact decKids_apart fun x hx => h x (by simp [hx])

theorem dec_apart {β : Type} {F : XFields β} {q : XPlace} (side : F.apart q = true) {v : Int} {m : String}
    {as : List (String × String)} {ks : List Xml} (hv : XValid v q (.elem m as ks)) (b : β) :
    F.dec (.elem m as ks) b = some (F.setText (textOf ks) b) := by
  simp only [XFields.apart, Bool.and_eq_true, List.all_eq_true, Bool.not_eq_true', List.contains_eq_mem,
    decide_eq_false_iff_not] at side
  simp only [XFields.dec, Xml.attrs, Xml.kids]
  rw [decAttrs_apart]
  · simp only
    rw [decKids_apart]
    intro x hx m hm
    cases h : x.isElem m with
    | false => rfl
    | true =>
      obtain ⟨q', hq, _⟩ := hv.kid hx h
      exact absurd hm (side.2 _ hq)
  · intro kv hkv
    have := attrs_declared hv kv hkv
    rw [List.any_eq_true] at this
    obtain ⟨d, hd, e⟩ := this
    rw [beq_iff_eq] at e
    rw [← e]; exact side.1 d hd

theorem ubare_struct {σ β : Type} {n : Nat} {q : XPlace} (F : XFields β) (toP : σ → β) (ofP : β → σ)
    (hto : ∀ b, toP (ofP b) = b) (side : F.apart q = true) (ht : F.texts = 0) (hz : CBare (XCodec.struct F toP ofP)) :
    UBare n (XCodec.struct F toP ofP) q := by
  refine ⟨?_, ?_, hz⟩
  · intro m a o he y hy
    simp only [XCodec.struct, Option.map_eq_some_iff] at he
    obtain ⟨ks, _, rfl⟩ := he
    cases hy
    simp [Xml.isElem]
  · intro v m x a o _ hv e e'
    cases x with
    | text s => cases hv
    | elem m' as ks =>
      simp only [XCodec.struct, hto, dec_apart side hv, F.setText_of_none ht, Option.map_some, Option.some.injEq] at e
      exact hz m o (by rw [← e'] ; simp only [XCodec.struct, ← e])

/-- A struct that is written without attributes, text and elements. -/
theorem cbare_struct {σ β : Type} (F : XFields β) (toP : σ → β) (ofP : β → σ) {as : List (String × String)}
    {ks : List Xml} (h : F.encAttrs (toP (ofP F.zero)) = as) (h' : F.encKids (toP (ofP F.zero)) = some ks)
    (ha : ∀ kv ∈ as, kv.2 = "") (ht : BareText (textOf ks))
    (hk : ∀ m bs ls, Xml.elem m bs ls ∈ ks → XBare (.elem m bs ls)) : CBare (XCodec.struct F toP ofP) := by
  intro m o he y hy
  simp only [XCodec.struct, h, h', Option.map_some, Option.some.injEq] at he
  subst he
  cases hy
  exact .mk ha ht hk

theorem cbare_attachedText : CBare X.attachedText :=
  cbare_struct X.attachedTextFields _ _ (as := []) rfl rfl (by simp) (.inl rfl) (by simp [textKids])

theorem cbare_mlModelEnergyMeasure : CBare X.mlModelEnergyMeasure :=
  cbare_struct X.mlModelEnergyMeasureFields _ _ (as := [])
    (ks := [.elem "value" [] (textKids (XText.f32.enc XText.f32.zero)), .elem "unit" [] []]) rfl rfl (by simp) (.inl rfl) (by
    intro m bs ls h
    simp only [List.mem_cons, List.not_mem_nil, or_false] at h
    rcases h with h | h <;> rw [h]
    · exact bare_textKids TextSame.bare
    · exact .mk (by simp) (.inl rfl) (by simp))

theorem ubare_cipherSuite_cipherSuites (n : Nat) : UBare n X.cipherSuite .cipherSuites :=
  ubare_struct X.cipherSuiteFields _ _ (fun _ => rfl) rfl rfl
    (cbare_struct X.cipherSuiteFields _ _ (as := []) rfl rfl (by simp) (.inl rfl) (by simp))

/-! ## References -/

theorem xcar_bomReference (n : Nat) : CCar n X.bomReference .bomReference .bomReference :=
  have h : CCar n (XCodec.struct X.bomReferenceFields (fun r : BOMReference => (r.val, ())) (fun p => ⟨p.1⟩)) .bomReference .bomReference :=
    (ccar_struct X.bomReferenceFields _ _ (fun _ => rfl) (ca_attr (ac_some (k := none) te_false rfl) az_text ca_nil) rfl).mono
      (Nat.le_succ n)
  ⟨h.named, fun v m x a o => h.car v m x a o⟩

theorem ubare_bomReference (n : Nat) {q : XPlace} (side : (q.attrs.any fun d => d.name == "ref") = false) :
    UBare n X.bomReference q :=
  have h : UBare n (XCodec.struct X.bomReferenceFields (fun r : BOMReference => (r.val, ())) (fun p => ⟨p.1⟩)) q :=
    ubare_struct X.bomReferenceFields _ _ (fun _ => rfl) (by
      simp only [XFields.apart, X.bomReferenceFields, XFields.attrNames, XFields.elemNames, Bool.and_eq_true]
      constructor
      · rw [List.any_eq_false] at side
        simpa using side
      · simp) rfl
      (cbare_struct X.bomReferenceFields _ _ (as := [("ref", "")]) rfl rfl (by simp) (.inl rfl) (by simp))
  ⟨h.named, fun v m x a o => h.bare v m x a o, h.zero⟩

theorem cempty_bomReference (n : Nat) : CEmpty n X.bomReference .bomReference .bomReference := by
  intro v x a hx hv hdi hd he
  cases x with
  | text s => cases hv
  | elem m as ks =>
    have hc := ((xcar_bomReference n).car v m _ a _ hx (by simp [Xml.isElem]) hv hdi hd rfl).1 _ rfl
    have ha : a.val = "" := by simpa [X.bomReference] using he
    simp only [X.bomReferenceFields, XFields.encAttrs, XText.string] at hc
    cases hc with
    | mk ha' ht hk hu =>
      refine .mk ?_ (fun h => by cases h) (fun m bs ls q _ _ h => by cases h)
      intro kv hkv hu
      apply Classical.byContradiction
      intro hne
      obtain ⟨s', hs', hsame⟩ := ha'.1 kv hkv hu hne
      simp [ha] at hs'
      have : s' = sanitize kv.2 := hsame
      rw [hs'.2] at this
      exact hne (sanitize_eq_empty.mp this.symm)

/-- A dependency in a dependency is read as a reference. -/
theorem xcar_dependencyRef (n : Nat) : CCar n X.dependencyRef .bomReference .bomReference :=
  (ccar_struct X.bomReferenceFields _ _ (fun _ => rfl) (ca_attr (ac_some (k := none) te_false rfl) az_text ca_nil) rfl).mono
    (Nat.le_succ n)

theorem xcar_dependencyRef_dependency (n : Nat) : CCar n X.dependencyRef .dependency .bomReference := by
  refine ⟨(xcar_dependencyRef n).named, ?_⟩
  intro v m x a o hd hm hv hdi e e'
  cases x with
  | text s => cases hm
  | elem m' as ks =>
    simp only [Xml.isElem, decide_eq_true_eq] at hm
    subst hm
    have e₀ := e
    simp only [X.dependencyRef, XCodec.struct, Option.map_eq_some_iff] at e e'
    obtain ⟨b, e, rfl⟩ := e
    obtain ⟨ks', e', rfl⟩ := e'
    cases e'
    refine ⟨fun y hy => ?_, fun h => by cases h⟩
    cases hy
    simp only [XFields.dec, Xml.attrs, Xml.kids] at e
    split at e
    · cases e
    · rename_i b₁ he₁
      split at e
      · cases e
      · rename_i b₂ he₂
        cases e
        have hdn : (as.map (·.1)).Nodup := by cases hdi; assumption
        obtain ⟨ha₁, ha₂⟩ := car_attrs (n := n) (p := .bomReference) (F := X.bomReferenceFields)
          (ca_attr (ac_some (k := none) te_false rfl) az_text ca_nil) (by decide) hdn (attrs_declared (p := .dependency) hv) he₁
        have hatt : X.bomReferenceFields.encAttrs b₂ = X.bomReferenceFields.encAttrs b₁ := encAttrs_decAll he₂
        have hk : ∀ m, m ∉ XPlace.bomReference.unread → ks.filter (Xml.isElem m) = [] := by
          intro m hu
          rw [List.filter_eq_nil_iff]
          intro x hx hxm
          obtain ⟨q, hq, _⟩ := hv.kid hx hxm
          have hq : (m, q) ∈ [("dependency", XPlace.dependency), ("dependency", .dependency), ("provides", .bomReference)] := hq
          have hu : m ∉ ["dependency", "provides"] := hu
          simp_all
        refine .mk ⟨?_, ?_⟩ ?_ ?_ ?_
        · intro kv hkv hu hne
          have := attrs_declared hv kv hkv
          have hkv1 : kv.1 ∈ X.bomReferenceFields.attrNames := by
            rw [show XPlace.attrs .dependency = [{ name := "ref", required := true }] from rfl] at this
            simp only [List.any_cons, List.any_nil, Bool.or_false, beq_iff_eq] at this
            exact List.mem_singleton.mpr this.symm
          obtain ⟨s', hs', hsame⟩ := ha₁ kv hkv hkv1 hne
          exact ⟨s', hatt.symm ▸ hs', hsame⟩
        · intro kv hkv
          exact (ha₂ kv (hatt ▸ hkv)).2
        · rfl
        · intro m hu _
          rw [unread_iff rfl] at hu
          rw [hk m hu]
          exact .nil
        · intro m hu y hy; cases hy

theorem xcar_dependency (n : Nat) : CCar n X.dependency .dependency .dependency :=
  have h : CCar n (XCodec.struct X.dependencyFields Dependency.toP Dependency.ofP) .dependency .dependency :=
    (ccar_struct X.dependencyFields _ _ (fun _ => rfl) (
      ca_attr (ac_some (k := none) te_false rfl) az_text <|
      ca_elem (ec_list (xcar_dependencyRef_dependency n) ⟨rfl, by simp [XPlace.carries], rfl, by decide⟩ (ce_never fun _ => rfl)) <|
      ca_elem (ec_list (xcar_dependencyRef n) ⟨rfl, by simp [XPlace.carries], rfl, by decide⟩ (ce_never fun _ => rfl)) <|
      ca_nil) rfl).mono (Nat.le_succ n)
  ⟨h.named, fun v m x a o => h.car v m x a o⟩

/-! ## Copyright -/

theorem xcar_copyright (n : Nat) : CCar n X.copyright .text .text := by
  refine ⟨?_, ?_⟩
  · intro m a o h y hy
    cases h; cases hy; simp [Xml.isElem]
  · intro v m x a o hd hm hv hdi e e'
    cases e'
    refine ⟨fun y hy => ?_, fun h => by cases h⟩
    cases hy
    simp only [X.copyright, Option.map_eq_some_iff] at e
    obtain ⟨t, e, rfl⟩ := e
    cases e
    exact carried_text rfl hv hm rfl

/-! ## Properties one level too high -/

theorem fixChar_blank {c : Char} (h : XmlText.isSpace c = true) : Xml.fixChar c = c := by
  simp only [XmlText.isSpace, Bool.or_eq_true, decide_eq_true_eq] at h
  rcases h with ((rfl | rfl) | rfl) | rfl <;> rfl

theorem textOf_chars {P : Char → Prop} : ∀ {ks : List Xml}, (∀ s, Xml.text s ∈ ks → ∀ c ∈ s.toList, P c) →
    ∀ c ∈ (textOf ks).toList, P c
  | [], _, c, hc => by simp [textOf] at hc
  | .elem _ _ _ :: ks, h, c, hc => by
    simp only [textOf] at hc
    exact textOf_chars (fun s hs => h s (by simp [hs])) c hc
  | .text s :: ks, h, c, hc => by
    simp only [textOf, String.toList_append, List.mem_append] at hc
    rcases hc with hc | hc
    · exact h s (by simp) c hc
    · exact textOf_chars (fun s hs => h s (by simp [hs])) c hc

theorem trim_sanitize_blank {s : String} (h : ∀ c ∈ s.toList, XmlText.isSpace c = true) : trim (sanitize s) = "" := by
  apply trim_blank
  intro c hc
  rw [sanitize_toList, List.mem_map] at hc
  obtain ⟨d, hd, rfl⟩ := hc
  rw [fixChar_blank (h d hd)]; exact h d hd

/-- The text of an element whose content is elements is white space. -/
theorem blank_of_valid {v : Int} {q : XPlace} {m : String} {as : List (String × String)} {ks : List Xml}
    (h : XValid v q (.elem m as ks)) (hq : q.mixed = false) : ∀ c ∈ (textOf ks).toList, XmlText.isSpace c = true := by
  cases h with
  | mk _ ht _ =>
    rcases ht with ht | ht
    · rw [hq] at ht; cases ht
    · apply textOf_chars
      intro s hs c hc
      rcases ht s hs c hc with rfl | rfl | rfl | rfl <;> rfl

theorem ubare_property_properties (n : Nat) : UBare n X.property .properties := by
  have hz : CBare X.property :=
    cbare_struct X.propertyFields _ _ (as := [("name", "")]) rfl rfl (by simp) (.inl rfl) (by simp [textKids])
  refine ⟨fun m a o he y hy => ?_, ?_, hz⟩
  · cases he; cases hy; simp [Xml.isElem]
  · intro v m x a o _ hv e e'
    cases x with
    | text s => cases hv
    | elem m' as ks =>
      have hd := dec_apart (F := X.propertyFields) (q := .properties) rfl hv (X.propertyFields.zero)
      have e : (X.propertyFields.dec (.elem m' as ks) X.propertyFields.zero).map Property.ofP = some a := e
      rw [hd, Option.map_some, Option.some.injEq] at e
      have e : ({ name := "", value := textOf ks } : Property) = a := e
      subst e
      have e' : some (some (Xml.elem m [("name", "")] (textKids (sanitize (textOf ks)) ++ []))) = some o := e'
      rw [Option.some.injEq] at e'
      subst e'
      intro y hy
      rw [Option.mem_some_iff] at hy
      subst hy
      rw [List.append_nil]
      refine .mk (by simp) ?_ ?_
      · rw [textOf_textKids]
        exact .inl (trim_sanitize_blank (blank_of_valid hv rfl))
      · intro m bs ls hm
        simp only [textKids] at hm
        split at hm <;> simp at hm

/-! ## Algorithms of IKEv2 -/

theorem elements_nil_apart {ks : List Xml} (h : Xml.elements ks = []) (m : String) : ∀ x ∈ ks, x.isElem m = false := by
  intro x hx
  cases x with
  | text s => rfl
  | elem k bs ls =>
    have : Xml.elem k bs ls ∈ Xml.elements ks := List.mem_filter.mpr ⟨hx, rfl⟩
    rw [h] at this; cases this

theorem ccar_ikev2 {σ β : Type} {n : Nat} {p : XPlace} {F : XFields β} {toP : σ → BOMReference × β} {ofP : BOMReference × β → σ}
    {isRef : β → Bool} (h : F.CarAt n p) (hp : p ∈ [XPlace.encr, .prf, .ke]) (hto : ∀ b, toP (ofP b) = b)
    (side : (F.carryCovers p && F.texts == 0 && p.attrs.isEmpty) = true) (ha : ∀ b, F.encAttrs b = [])
    (hz : isRef F.zero = true) (hr : ∀ b, isRef b = true → F.encKids b = some []) :
    CCar (n + 1) (X.ikev2 F toP ofP isRef) p p := by
  simp only [Bool.and_eq_true, beq_iff_eq, List.isEmpty_iff] at side
  obtain ⟨⟨hc, ht⟩, hat⟩ := side
  refine ⟨?_, ?_⟩
  · intro m a o he y hy
    simp only [X.ikev2, XCodec.struct] at he
    split at he
    · cases he; cases hy; simp [Xml.isElem]
    · rw [Option.map_eq_some_iff] at he
      obtain ⟨ks, _, rfl⟩ := he
      cases hy; simp [Xml.isElem]
  · intro v m x a o hd hm hv hdi e e'
    cases x with
    | text s => cases hm
    | elem m' as ks =>
      simp only [Xml.isElem, decide_eq_true_eq] at hm
      subst hm
      have has : as = [] := by
        cases as with
        | nil => rfl
        | cons kv as => have := attrs_declared hv kv (by simp); rw [hat] at this; cases this
      subst has
      have hunread : ∀ m, ¬ p.Unread ks m → m ∉ p.unread := fun m h h' => h (.inl h')
      have hnot : ∀ m, ¬ p.Unread ks m := by
        rintro m (h' | ⟨rfl, _⟩)
        · simp only [List.mem_cons, List.not_mem_nil, or_false] at hp
          rcases hp with rfl | rfl | rfl <;> cases h'
        · simp at hp
      have key : ∀ b ks' s, F.dec (.elem m' [] ks) F.zero = some b → F.encKids b = some ks' →
          (s = sanitize (trim (textOf ks)) ∨ s = "" ∧ Xml.elements ks ≠ []) →
          XCarried p (.elem m' [] ks) (.elem m' [] (textKids s ++ ks')) := by
        intro b ks' s e e' hs
        have P := car_parts F h hc hd hv hdi e e'
        rw [ht, if_neg (by simp)] at P
        refine .mk ⟨by simp, by simp⟩ ?_ ?_ (fun m hu => absurd hu (hnot m))
        · rw [TextCarried, if_pos hp, textOf_append, textOf_textKids, P.text, String.append_empty]
          exact hs
        · intro k hu hmer
          rw [List.filter_append, filter_isElem_textKids, List.nil_append]
          exact P.kids k (hunread k hu) hmer
      simp only [X.ikev2] at e
      split at e
      · cases e
      · rename_i b hb
        have hF : F.dec (.elem m' [] ks) F.zero = some b.2 ∧ b.1 = textOf ks := by
          simp only [XFields.dec, Xml.attrs, Xml.kids, XFields.decAttrs] at hb ⊢
          rw [decKids_pass (F := F) (fun _ _ _ => rfl)] at hb
          cases hk : XField.decAll F.setKid ks F.zero with
          | none => rw [hk] at hb; cases hb
          | some c =>
            rw [hk] at hb
            cases hb
            exact ⟨by simp only [F.setText_of_none ht, XFields.setText], rfl⟩
        obtain ⟨hF, hb1⟩ := hF
        rw [hb1] at e
        split at e
        · rename_i hcond
          cases e
          simp only [X.ikev2, hto] at e'
          rw [if_pos hcond.1] at e'
          cases e'
          refine ⟨fun y hy => ?_, fun h => by cases h⟩
          cases hy
          have := key b.2 [] (sanitize (trim (textOf ks))) hF (hr b.2 hcond.2) (.inl rfl)
          rwa [List.append_nil] at this
        · rename_i hcond
          cases e
          simp only [X.ikev2, hto, XCodec.struct] at e'
          rw [if_neg (by simp)] at e'
          rw [Option.map_eq_some_iff] at e'
          obtain ⟨ks', e', rfl⟩ := e'
          refine ⟨fun y hy => ?_, fun h => by cases h⟩
          cases hy
          have := key b.2 ks' "" hF e' (by
            by_cases ht : trim (textOf ks) = ""
            · left; rw [ht]; rfl
            · right
              refine ⟨rfl, fun hel => hcond ⟨ht, ?_⟩⟩
              have : F.dec (.elem m' [] ks) F.zero = some F.zero := by
                simp only [XFields.dec, Xml.attrs, Xml.kids, XFields.decAttrs]
                rw [decKids_apart fun x hx m _ => elements_nil_apart hel m x hx]
                simp only [F.setText_of_none ‹F.texts = 0›]
              rw [this, Option.some.injEq] at hF
              rw [← hF]; exact hz)
          simp only [XFields.encAttrs, ha]
          exact this

/-! ## Certificates -/

theorem struct_named {σ β : Type} {F : XFields β} {toP : σ → β} {ofP : β → σ} {m : String} {a : σ} {o : Option Xml}
    (h : (XCodec.struct F toP ofP).enc m a = some o) : ∀ y ∈ o, y.isElem m = true := by
  simp only [XCodec.struct, Option.map_eq_some_iff] at h
  obtain ⟨ks, _, rfl⟩ := h
  intro y hy
  cases hy
  simp [Xml.isElem]

/-- Fields that are read the same way. -/
theorem dec_congr {β : Type} {F G : XFields β} (ha : ∀ kv b, F.setAttr kv b = G.setAttr kv b)
    (hk : ∀ x b, F.setKid x b = G.setKid x b) (ht : ∀ s b, F.setText s b = G.setText s b) (x : Xml) (b : β) :
    F.dec x b = G.dec x b := by
  have h₁ : ∀ as b, F.decAttrs as b = G.decAttrs as b := by
    intro as
    induction as with
    | nil => intro b; rfl
    | cons kv as ih =>
      intro b
      simp only [XFields.decAttrs, ha]
      split
      · rfl
      · exact ih _
  have h₂ : F.setKid = G.setKid := by funext x b; exact hk x b
  simp only [XFields.dec, h₁, h₂, ht]

/-- Four fields: those without an element hold their zero values. -/
theorem dec_four {α β γ δ : Type} {f : XField α} {g : XField β} {h : XField γ} {k : XField δ} {m : String}
    {as : List (String × String)} {ks : List Xml} {b : α × β × γ × δ × Unit}
    (e : (XFields.elem f <| .elem g <| .elem h <| .elem k .nil).dec (.elem m as ks) (f.zero, g.zero, h.zero, k.zero, ()) = some b) :
    XField.decAll f.dec (ks.filter (Xml.isElem f.name)) f.zero = some b.1 ∧
    (ks.filter (Xml.isElem g.name) = [] → b.2.1 = g.zero) ∧
    (ks.filter (Xml.isElem h.name) = [] → b.2.2.1 = h.zero) ∧ (ks.filter (Xml.isElem k.name) = [] → b.2.2.2.1 = k.zero) := by
  simp only [XFields.dec, Xml.attrs, Xml.kids] at e
  rw [decAttrs_apart (by simp [XFields.attrNames])] at e
  simp only at e
  split at e
  · cases e
  · rename_i c hc
    cases e
    obtain ⟨h₁, hc⟩ := decKids_split _ _ hc
    obtain ⟨h₂, hc⟩ := decKids_split _ _ hc
    obtain ⟨h₃, hc⟩ := decKids_split _ _ hc
    obtain ⟨h₄, hc⟩ := decKids_split _ _ hc
    have sub : ∀ {P Q : Xml → Bool} {l : List Xml}, l.filter P = [] → (l.filter Q).filter P = [] := by
      intro P Q l h
      rw [List.filter_filter, List.filter_eq_nil_iff]
      intro x hx hP
      rw [Bool.and_eq_true] at hP
      rw [List.filter_eq_nil_iff] at h
      exact h x hx hP.1
    refine ⟨h₁, ?_, ?_, ?_⟩
    · intro e; rw [sub e] at h₂; exact (Option.some.inj h₂).symm
    · intro e; rw [sub (sub e)] at h₃; exact (Option.some.inj h₃).symm
    · intro e; rw [sub (sub (sub e))] at h₄; exact (Option.some.inj h₄).symm

theorem no_kid {v : Int} {ok : XPlace → Xml → Prop} {c : Content} {ks : List Xml} (h : c.Matches v ok (Xml.elements ks))
    {m : String} (hm : m ∉ c.els.map (·.1)) : ks.filter (Xml.isElem m) = [] := by
  rw [← filter_elements, List.filter_eq_nil_iff]
  intro x hx hxm
  obtain ⟨e, he, h', _⟩ := h.els x hx
  exact hm (List.mem_map.mpr ⟨e, he, isElem_same h' hxm⟩)

/-- The state as it is read, and written when it is a state that the schema has. -/
def certPre : XFields (String × String × String × String × Unit) :=
  .elem (.plain "state" false X.string) <| .elem (.plain "name" true X.string) <|
    .elem (.plain "description" true X.string) <| .elem (.plain "reason" true X.string) .nil

/-- The state as it is read, and written when it is another one. -/
def certCus : XFields (String × String × String × String × Unit) :=
  .elem (.plain "state" true X.string) <| .elem (.plain "name" false X.string) <|
    .elem (.plain "description" true X.string) <| .elem (.plain "reason" true X.string) .nil

theorem certPre_car (n : Nat) : certPre.CarAt n .certificateState :=
  ca_elem (ec_plain_text (tat (q := .text) (k := none) rfl rfl rfl rfl) tl_false rfl) <|
  ca_elem (ec_plain_text (tat (q := .text) (k := none) rfl rfl rfl rfl) (tl_text (tat (q := .text) (k := none) rfl rfl rfl rfl)) rfl) <|
  ca_elem (ec_plain_text (tat (q := .text) (k := none) rfl rfl rfl rfl) (tl_text (tat (q := .text) (k := none) rfl rfl rfl rfl)) rfl) <|
  ca_elem (ec_plain_text (tat (q := .text) (k := none) rfl rfl rfl rfl) (tl_text (tat (q := .text) (k := none) rfl rfl rfl rfl)) rfl) <|
  ca_nil

theorem certCus_car (n : Nat) : certCus.CarAt n .certificateState :=
  ca_elem (ec_plain_text (tat (q := .text) (k := none) rfl rfl rfl rfl) (tl_text (tat (q := .text) (k := none) rfl rfl rfl rfl)) rfl) <|
  ca_elem (ec_plain_text (tat (q := .text) (k := none) rfl rfl rfl rfl) tl_false rfl) <|
  ca_elem (ec_plain_text (tat (q := .text) (k := none) rfl rfl rfl rfl) (tl_text (tat (q := .text) (k := none) rfl rfl rfl rfl)) rfl) <|
  ca_elem (ec_plain_text (tat (q := .text) (k := none) rfl rfl rfl rfl) (tl_text (tat (q := .text) (k := none) rfl rfl rfl rfl)) rfl) <|
  ca_nil

theorem xcar_certificateState (n : Nat) : CCar n X.certificateState .certificateState .certificateState := by
  refine CCar.mono (n := n + 1) ⟨?_, ?_⟩ (Nat.le_succ n)
  · intro m a o he y hy
    simp only [X.certificateState] at he
    split at he
    · cases he
    · exact struct_named he y hy
    · exact struct_named he y hy
    · cases he; cases hy
  · intro v m x a o hd hm hv hdi e e'
    cases x with
    | text s => cases hm
    | elem m' as ks =>
      simp only [Xml.isElem, decide_eq_true_eq] at hm
      subst hm
      simp only [X.certificateState] at e
      split at e
      · cases e
      · rename_i s nm d r hraw
        obtain ⟨h₁, h₂, h₃, h₄⟩ := dec_four hraw
        split at e
        · rename_i hs
          cases e
          have hnd : nm = "" ∧ d = "" := by
            cases hv with
            | mk _ _ hm =>
              have hm : (Content.choice (.seqs [.el "state" .text, .opt (.el "reason" .text)])
                (.seqs [.el "name" .text, .opt (.el "description" .text), .opt (.el "reason" .text)])).Matches v _ _ := hm
              cases hm with
              | left hm => exact ⟨h₂ (no_kid hm (by decide)), h₃ (no_kid hm (by decide))⟩
              | right hm =>
                have hf : ks.filter (Xml.isElem (XField.plain "state" false X.string).name) = [] := no_kid hm (by decide)
                rw [hf] at h₁
                exact absurd (Option.some.inj h₁).symm hs
          obtain ⟨rfl, rfl⟩ := hnd
          have hcong : ∀ {b}, X.certificateStateRaw.dec (.elem m' as ks) X.certificateStateRaw.zero = some b →
              certPre.dec (.elem m' as ks) certPre.zero = some b :=
            fun h => (dec_congr (F := certPre) (G := X.certificateStateRaw) (fun _ _ => rfl) (fun _ _ => rfl) (fun _ _ => rfl) _ _).trans h
          have C := fun ks' e' => car_fields (ks' := ks') certPre (certPre_car n) rfl hd hv hdi
            (hcong hraw) e'
          have e₂ : X.predefinedCertificateState.enc m' ⟨s, r⟩ = some o := e'
          simp only [X.predefinedCertificateState, XCodec.struct, Option.map_eq_some_iff] at e₂
          obtain ⟨ks', e₃, rfl⟩ := e₂
          refine ⟨fun y hy => ?_, fun h => by cases h⟩
          rw [Option.mem_some_iff] at hy
          subst hy
          refine C ks' ?_
          rw [← e₃]
          simp [certPre, XFields.encKids, XField.plain, XCodec.simple, XText.string, PredefinedCertificateState.toP]
        · rename_i hs
          cases e
          have hs : s = "" := by simpa using hs
          subst hs
          have hcong : ∀ {b}, X.certificateStateRaw.dec (.elem m' as ks) X.certificateStateRaw.zero = some b →
              certCus.dec (.elem m' as ks) certCus.zero = some b :=
            fun h => (dec_congr (F := certCus) (G := X.certificateStateRaw) (fun _ _ => rfl) (fun _ _ => rfl) (fun _ _ => rfl) _ _).trans h
          have C := fun ks' e' => car_fields (ks' := ks') certCus (certCus_car n) rfl hd hv hdi
            (hcong hraw) e'
          have e₂ : X.customCertificateState.enc m' ⟨nm, d, r⟩ = some o := e'
          simp only [X.customCertificateState, XCodec.struct, Option.map_eq_some_iff] at e₂
          obtain ⟨ks', e₃, rfl⟩ := e₂
          refine ⟨fun y hy => ?_, fun h => by cases h⟩
          rw [Option.mem_some_iff] at hy
          subst hy
          refine C ks' ?_
          rw [← e₃]
          by_cases hd' : d = "" <;> by_cases hr' : r = "" <;> simp [hd', hr', certCus, XFields.encKids, XField.plain, XCodec.simple, XText.string, CustomCertificateState.toP]

/-- The extension as it is read, and written when it is a common one. -/
def certCommon : XFields (String × String × String × String × Unit) :=
  .elem (.plain "commonExtensionName" false X.string) <| .elem (.plain "commonExtensionValue" true X.string) <|
    .elem (.plain "customExtensionName" true X.string) <| .elem (.plain "customExtensionValue" true X.string) .nil

/-- The extension as it is read, and written when it is another one (with the value of a common one). -/
def certCustom : XFields (String × String × String × String × Unit) :=
  .elem (.plain "commonExtensionName" true X.string) <| .elem (.plain "commonExtensionValue" true X.string) <|
    .elem (.plain "customExtensionName" false X.string) <| .elem (.plain "customExtensionValue" true X.string) .nil

theorem certCommon_car (n : Nat) : certCommon.CarAt n .certificateExtension :=
  ca_elem (ec_plain_text (tat (q := .text) (k := none) rfl rfl rfl rfl) tl_false rfl) <|
  ca_elem (ec_plain_text (tat (q := .text) (k := none) rfl rfl rfl rfl) (tl_text (tat (q := .text) (k := none) rfl rfl rfl rfl)) rfl) <|
  ca_elem (ec_plain_text (tat (q := .text) (k := none) rfl rfl rfl rfl) (tl_text (tat (q := .text) (k := none) rfl rfl rfl rfl)) rfl) <|
  ca_elem (ec_plain_text (tat (q := .text) (k := none) rfl rfl rfl rfl) (tl_text (tat (q := .text) (k := none) rfl rfl rfl rfl)) rfl) <|
  ca_nil

theorem certCustom_car (n : Nat) : certCustom.CarAt n .certificateExtension :=
  ca_elem (ec_plain_text (tat (q := .text) (k := none) rfl rfl rfl rfl) (tl_text (tat (q := .text) (k := none) rfl rfl rfl rfl)) rfl) <|
  ca_elem (ec_plain_text (tat (q := .text) (k := none) rfl rfl rfl rfl) (tl_text (tat (q := .text) (k := none) rfl rfl rfl rfl)) rfl) <|
  ca_elem (ec_plain_text (tat (q := .text) (k := none) rfl rfl rfl rfl) tl_false rfl) <|
  ca_elem (ec_plain_text (tat (q := .text) (k := none) rfl rfl rfl rfl) (tl_text (tat (q := .text) (k := none) rfl rfl rfl rfl)) rfl) <|
  ca_nil

theorem xcar_certificateExtension (n : Nat) : CCar n X.certificateExtension .certificateExtension .certificateExtension := by
  refine CCar.mono (n := n + 1) ⟨?_, ?_⟩ (Nat.le_succ n)
  · intro m a o he y hy
    simp only [X.certificateExtension] at he
    split at he
    · cases he
    · exact struct_named he y hy
    · exact struct_named he y hy
    · cases he; cases hy
  · intro v m x a o hd hm hv hdi e e'
    cases x with
    | text s => cases hm
    | elem m' as ks =>
      simp only [Xml.isElem, decide_eq_true_eq] at hm
      subst hm
      have has : as = [] := by
        cases as with
        | nil => rfl
        | cons kv as => have := attrs_declared hv kv (by simp); cases this
      subst has
      simp only [X.certificateExtension] at e
      split at e
      · cases e
      · rename_i s nm d r hraw
        obtain ⟨h₁, h₂, h₃, h₄⟩ := dec_four hraw
        have hone : (ks.filter (Xml.isElem "commonExtensionName")).length ≤ 1 :=
          once_of_valid hv rfl (by rintro (⟨h, _⟩ | ⟨h, _⟩) <;> cases h)
        have hname : (∀ k ∈ ks, k.isElem "commonExtensionName" = true → textOf k.kids = "") ↔ s = "" := by
          have h₁ : XField.decAll (XField.plain "commonExtensionName" false X.string).dec
            (ks.filter (Xml.isElem "commonExtensionName")) "" = some s := h₁
          rcases length_le_one hone with h | ⟨k, h⟩
          · rw [h] at h₁
            refine ⟨fun _ => (Option.some.inj h₁).symm, fun _ k hk hk' => ?_⟩
            have := List.mem_filter.mpr ⟨hk, hk'⟩
            rw [h] at this; cases this
          · rw [h, XField.decAll_single] at h₁
            have hs : textOf k.kids = s := Option.some.inj h₁
            have hmem : k ∈ ks.filter (Xml.isElem "commonExtensionName") := by rw [h]; simp
            obtain ⟨hk, hk'⟩ := List.mem_filter.mp hmem
            refine ⟨fun h' => by rw [← hs]; exact h' k hk hk', fun e l hl hl' => ?_⟩
            have := List.mem_filter.mpr ⟨hl, hl'⟩
            rw [h, List.mem_singleton] at this
            rw [this, hs, e]
        split at e
        · rename_i hs
          cases e
          have hnd : d = "" ∧ r = "" := by
            cases hv with
            | mk _ _ hm =>
              have hm : (Content.choice (.seqs [.el "commonExtensionName" .text, .el "commonExtensionValue" .text])
                (.seqs [.el "customExtensionName" .text, .opt (.el "customExtensionValue" .text)])).Matches v _ _ := hm
              cases hm with
              | left hm => exact ⟨h₃ (no_kid hm (by decide)), h₄ (no_kid hm (by decide))⟩
              | right hm =>
                have hf : ks.filter (Xml.isElem (XField.plain "commonExtensionName" false X.string).name) = [] :=
                  no_kid hm (by decide)
                rw [hf] at h₁
                exact absurd (Option.some.inj h₁).symm hs
          obtain ⟨rfl, rfl⟩ := hnd
          have hcong : ∀ {b}, X.certificateExtensionRaw.dec (.elem m' [] ks) X.certificateExtensionRaw.zero = some b →
              certCommon.dec (.elem m' [] ks) certCommon.zero = some b :=
            fun h => (dec_congr (F := certCommon) (G := X.certificateExtensionRaw) (fun _ _ => rfl) (fun _ _ => rfl) (fun _ _ => rfl) _ _).trans h
          have C := fun ks' e' => car_parts (ks' := ks') certCommon (certCommon_car n) rfl hd hv hdi
            (hcong hraw) e'
          have e₂ : X.commonCertificateExtension.enc m' ⟨s, nm⟩ = some o := e'
          simp only [X.commonCertificateExtension, XCodec.struct, Option.map_eq_some_iff] at e₂
          obtain ⟨ks', e₃, rfl⟩ := e₂
          refine ⟨fun y hy => ?_, fun h => by cases h⟩
          rw [Option.mem_some_iff] at hy
          subst hy
          have P := C ks' (by
            rw [← e₃]
            simp [certCommon, XFields.encKids, XField.plain, XCodec.simple, XText.string, CommonCertificateExtension.toP])
          have hnu : ∀ m, ¬ XPlace.certificateExtension.Unread ks m := by
            rintro m (h | ⟨_, _, h⟩)
            · cases h
            · exact hs (hname.1 h)
          refine .mk ⟨fun kv h => (by cases h), fun kv h => (by cases (show kv ∈ ([] : List (String × String)) from h))⟩ ?_ ?_
            (fun m hu => absurd hu (hnu m))
          · exact P.text
          · intro k _ hmer
            exact P.kids k (by simp [XPlace.unread]) hmer
        · rename_i hs
          cases e
          have hs : s = "" := by simpa using hs
          subst hs
          have hcong : ∀ {b}, X.certificateExtensionRaw.dec (.elem m' [] ks) X.certificateExtensionRaw.zero = some b →
              certCustom.dec (.elem m' [] ks) certCustom.zero = some b :=
            fun h => (dec_congr (F := certCustom) (G := X.certificateExtensionRaw) (fun _ _ => rfl) (fun _ _ => rfl) (fun _ _ => rfl) _ _).trans h
          have C := fun ks' e' => car_parts (ks' := ks') certCustom (certCustom_car n) rfl hd hv hdi
            (hcong hraw) e'
          have e₂ : X.customCertificateExtension.enc m' ⟨d, r⟩ = some o := e'
          simp only [X.customCertificateExtension, XCodec.struct, Option.map_eq_some_iff] at e₂
          obtain ⟨ks', e₃, rfl⟩ := e₂
          refine ⟨fun y hy => ?_, fun h => by cases h⟩
          rw [Option.mem_some_iff] at hy
          subst hy
          obtain ⟨ks'', e'', hks, hnv, htx⟩ : ∃ ks'', certCustom.encKids ("", nm, d, r, ()) = some ks'' ∧
              (∀ k, k ≠ "commonExtensionValue" → ks''.filter (Xml.isElem k) = ks'.filter (Xml.isElem k)) ∧
              (∀ y ∈ ks', y.isElem "commonExtensionValue" = false) ∧ textOf ks' = "" := by
            by_cases hn : nm = ""
            all_goals by_cases hr : r = ""
            all_goals simp [XFields.encKids, XField.plain, XCodec.simple, XText.string, CustomCertificateExtension.toP, hr] at e₃
            all_goals subst e₃
            all_goals simp [certCustom, XFields.encKids, XField.plain, XCodec.simple, XText.string, hn, hr, Xml.isElem]
            · rfl
            · rfl
            all_goals
              refine ⟨fun k hk => ?_, rfl⟩
              rw [List.filter_cons_of_neg (by simpa [Xml.isElem] using fun h => hk h.symm)]
          have P := C ks'' e''
          have hun : ∀ m, XPlace.certificateExtension.Unread ks m ↔ m = "commonExtensionValue" := by
            intro m
            constructor
            · rintro (h | ⟨_, h, _⟩)
              · cases h
              · exact h
            · exact fun h => Or.inr ⟨rfl, h, hname.2 rfl⟩
          refine .mk ⟨fun kv h => (by cases h), fun kv h => (by cases (show kv ∈ ([] : List (String × String)) from h))⟩ htx ?_ ?_
          · intro k hu hmer
            rw [hun] at hu
            rw [← hks k hu]
            exact P.kids k (by simp [XPlace.unread]) hmer
          · intro k hu y hy hyk
            rw [hun] at hu
            subst hu
            rw [hnv y hy] at hyk; cases hyk

theorem ptr_named {α : Type} {m : String} {c : XCodec α} {n : Nat} {q r : XPlace} (C : CCar n c q r) {a : Option α} {ys : List Xml}
    (h : (XField.ptr m c).enc a = some ys) : ∀ y ∈ ys, y.isElem m = true := by
  cases a with
  | none => cases h; simp
  | some a => exact named_toList C h

theorem filter_isElem_append_other {m m' : String} (hm : m' ≠ m) {xs ys : List Xml} (h : ∀ y ∈ ys, y.isElem m' = true) :
    (xs ++ ys).filter (Xml.isElem m) = xs.filter (Xml.isElem m) := by
  rw [List.filter_append, filter_isElem_of_named h, if_neg hm, List.append_nil]

theorem textOf_named {m : String} : ∀ {ys : List Xml}, (∀ y ∈ ys, y.isElem m = true) → textOf ys = ""
  | [], _ => rfl
  | .text s :: ys, h => by have := h (.text s) (by simp); cases this
  | .elem k as ks :: ys, h => by
    rw [Xml.textOf]
    exact textOf_named fun y hy => h y (by simp [hy])

/-! ### Lists of alternatives in an element -/

theorem decEach_nil {α : Type} {g : Xml → Option (List α)} : ∀ {ks : List Xml}, X.decEach g ks = some [] →
    ∀ k ∈ ks, g k = some []
  | [], _, k, hk => by cases hk
  | x :: ks, h, k, hk => by
    simp only [X.decEach] at h
    split at h
    · cases h
    · rename_i as₁ h₁
      obtain ⟨as₂, h₂, h₃⟩ := Option.map_eq_some_iff.1 h
      obtain ⟨rfl, rfl⟩ := List.append_eq_nil_iff.1 h₃
      rcases List.mem_cons.1 hk with rfl | hk
      · exact h₁
      · exact decEach_nil h₂ k hk

theorem encEach_text {α : Type} {f : α → Option (List Xml)} (hf : ∀ a ys, f a = some ys → ∀ y ∈ ys, ∃ m, y.isElem m = true) :
    ∀ {as : List α} {ys : List Xml}, X.encEach f as = some ys → textOf ys = ""
  | [], ys, h => by cases h; rfl
  | a :: as, ys, h => by
    simp only [X.encEach] at h
    split at h
    · cases h
    · rename_i ks hk
      obtain ⟨zs, h', rfl⟩ := Option.map_eq_some_iff.1 h
      have hz := encEach_text hf h'
      have : ∀ {ks : List Xml}, (∀ y ∈ ks, ∃ m, y.isElem m = true) → textOf (ks ++ zs) = "" := by
        intro ks
        induction ks with
        | nil => intro _; exact hz
        | cons y ks ih =>
          intro hy
          cases y with
          | text s => obtain ⟨m, hm⟩ := hy (.text s) (by simp); cases hm
          | elem m as ls =>
            rw [List.cons_append, Xml.textOf]
            exact ih fun y h => hy y (by simp [h])
      exact this (hf a ks hk)

/-- A place with nothing but elements. -/
def XPlace.lists (q : XPlace) : Bool :=
  q.attrs.isEmpty && !q.mixed && q.unread.isEmpty && q != .certificateExtension && !([.encr, .prf, .ke].contains q)

theorem lists_carried {q : XPlace} (hq : q.lists = true) {v : Int} {m : String} {as : List (String × String)} {ks ks' : List Xml}
    (hv : XValid v q (.elem m as ks)) (ht : textOf ks' = "")
    (hk : ∀ k, ¬ q.Merged ks k → XAligned q k (ks.filter (Xml.isElem k)) (ks'.filter (Xml.isElem k))) :
    XCarried q (.elem m as ks) (.elem m [] ks') := by
  simp only [XPlace.lists, Bool.and_eq_true, List.isEmpty_iff, Bool.not_eq_true', bne_iff_ne, ne_eq, List.contains_eq_mem,
    decide_eq_false_iff_not] at hq
  obtain ⟨⟨⟨⟨hat, hmix⟩, hun⟩, hce⟩, hno⟩ := hq
  refine .mk ⟨?_, by simp⟩ ?_ (fun k _ => hk k) ?_
  · intro kv hkv
    have := attrs_declared hv kv hkv; rw [hat] at this; cases this
  · rw [TextCarried, if_neg hno, hmix, if_neg (by simp)]
    exact ht
  · rintro k (h | ⟨h, _⟩)
    · rw [hun] at h; cases h
    · exact absurd h hce

theorem lists_blank {q : XPlace} (hq : q.lists = true) {v : Int} {m : String} {as : List (String × String)} {ks : List Xml}
    (hv : XValid v q (.elem m as ks)) (hk : ∀ k ∈ ks, ∀ m, k.isElem m = false) : XBlank q (.elem m as ks) := by
  simp only [XPlace.lists, Bool.and_eq_true, List.isEmpty_iff, Bool.not_eq_true', bne_iff_ne, ne_eq, List.contains_eq_mem,
    decide_eq_false_iff_not] at hq
  obtain ⟨⟨⟨⟨hat, hmix⟩, hun⟩, hce⟩, hno⟩ := hq
  refine .mk ?_ (fun h => by rw [hmix] at h; cases h) ?_
  · intro kv hkv
    have := attrs_declared hv kv hkv; rw [hat] at this; cases this
  · intro k bs ls _ h _ _
    have := hk _ h k
    simp [Xml.isElem] at this

theorem XCarried.blank {p : XPlace} {m m' : String} {as : List (String × String)} {ks : List Xml}
    (h : XCarried p (.elem m as ks) (.elem m' [] [])) (hc : p.clear = true) (ht : p.mixed = true → textOf ks = "") :
    XBlank p (.elem m as ks) := by
  cases h with
  | mk ha _ hk _ =>
    refine CarParts.blank (s := "") ⟨ha, rfl, fun m hu => hk m ?_, by simp⟩ hc ht
    rw [unread_iff (clear_parts hc).1]
    exact hu


/-! ### Elements that are read in a loop -/

/-- A field that is read otherwise, but written the same way after one element. -/
theorem ECar.mod {α : Type} {n : Nat} {p : XPlace} {f f' : XField α} (E : ECar n p f) (ho : p.once f.name = true)
    (hn : f'.name = f.name) (henc : f'.enc = f.enc) (hz : f'.zero = f.zero)
    (h : ∀ x a', f'.dec x f.zero = some a' → ∃ a, f.dec x f.zero = some a ∧ f.enc a = f.enc a') : ECar n p f' := by
  refine ⟨fun a ys he => ?_, ?_⟩
  · rw [hn]; exact E.named a ys (by rw [← henc]; exact he)
  intro v xs a ys hx hl hd he
  rw [hn] at hx hl ⊢
  rw [henc] at he
  rw [hz] at hd
  rcases length_le_one (hl ho) with rfl | ⟨x, rfl⟩
  · exact E.car v [] a ys hx hl hd he
  · rw [XField.decAll_single] at hd
    obtain ⟨b, hb, hbe⟩ := h x a hd
    exact E.car v [x] b ys hx hl (by rw [XField.decAll_single]; exact hb) (by rw [hbe]; exact he)

/-- A loop over the elements goes through the same states as fields. -/
theorem decAll_sim {σ β : Type} {step : Xml → σ → Option σ} {set : Xml → β → Option β} {R : σ → β → Prop} :
    ∀ {ks : List Xml} {st st' : σ} {b : β}, (∀ x ∈ ks, ∀ st st' b, R st b → step x st = some st' → ∃ b', set x b = some b' ∧ R st' b') →
      R st b → XField.decAll step ks st = some st' → ∃ b', XField.decAll set ks b = some b' ∧ R st' b'
  | [], st, st', b, _, hr, h => by cases h; exact ⟨b, rfl, hr⟩
  | x :: ks, st, st', b, hs, hr, h => by
    simp only [XField.decAll] at h
    split at h
    · cases h
    · rename_i st₁ h₁
      obtain ⟨b₁, hb₁, hr₁⟩ := hs x (by simp) st st₁ b hr h₁
      obtain ⟨b', hb', hr'⟩ := decAll_sim (fun x hx => hs x (by simp [hx])) hr₁ h
      exact ⟨b', by simp only [XField.decAll, hb₁]; exact hb', hr'⟩

/-- Fields that are all elements. -/
theorem dec_kids_only {β : Type} {F : XFields β} (ha : F.attrNames = []) (ht : F.texts = 0) {m : String}
    {as : List (String × String)} {ks : List Xml} {b b' : β} (h : XField.decAll F.setKid ks b = some b') :
    F.dec (.elem m as ks) b = some b' := by
  simp only [XFields.dec, Xml.attrs, Xml.kids]
  rw [decAttrs_apart (by rw [ha]; simp)]
  simp only [h, XFields.setText_of_none F ht]

/-- A list of alternatives with an enclosing element. -/
def listField {α : Type} (name : String) (g : Xml → Option (List α)) (f : α → Option (List Xml)) : XField (PSlice α) where
  name := name
  enc := X.enclosed name f
  dec x a := (X.decEach g x.kids).map fun l => if l ≠ [] then .list l else a
  zero := .nil
  norm a := a

theorem ec_listField {α : Type} {n : Nat} {p q : XPlace} {m : String} {g : Xml → Option (List α)} {f : α → Option (List Xml)}
    (K : KAt p m q q) (ho : p.once m = true) (hq : q.lists = true)
    (hf : ∀ a ys, f a = some ys → ∀ y ∈ ys, ∃ m, y.isElem m = true)
    (hg : ∀ x, g x = some [] → ∀ m, x.isElem m = false)
    (H : ∀ v m as ks, XValid v q (.elem m as ks) → (Xml.elem m as ks).depth < n → (Xml.elem m as ks).Distinct →
      ∀ x ∈ ks, EachCar q g f (fun k => ¬ q.Merged ks k) x) : ECar n p (listField m g f) := by
  refine ⟨fun a ys h => ?_, ?_⟩
  · cases a with
    | nil => cases h; simp
    | nilSlice => simp only [listField, X.enclosed, Option.map_eq_some_iff] at h; obtain ⟨ks, _, rfl⟩ := h; simp [Xml.isElem, listField]
    | list a => simp only [listField, X.enclosed, Option.map_eq_some_iff] at h; obtain ⟨ks, _, rfl⟩ := h; simp [Xml.isElem, listField]
  intro v xs a ys hx hl hd he
  refine ⟨fun h => absurd h K.read, fun _ => ?_⟩
  rcases length_le_one (hl ho) with rfl | ⟨x, rfl⟩
  · cases hd; cases he; exact .nil
  · have hxk := hx x (by simp)
    rw [XField.decAll_single] at hd
    simp only [listField, Option.map_eq_some_iff] at hd
    obtain ⟨l, hd, ha⟩ := hd
    have hv := K.valid hxk
    have hm := hxk.named
    cases x with
    | text s => cases hm
    | elem m₀ as ks =>
      simp only [Xml.isElem, decide_eq_true_eq] at hm
      have hm : m₀ = m := hm
      subst hm
      by_cases hn : l = []
      · subst hn
        rw [if_neg (by simp)] at ha
        subst ha
        cases he
        exact .drop K.carries (lists_blank hq hv fun k hk => hg k (decEach_nil hd k hk)) .nil
      · rw [if_pos hn] at ha
        subst ha
        have he : (X.encEach f l).map (fun ks => [Xml.elem m₀ [] ks]) = some ys := he
        obtain ⟨ks', he₂, rfl⟩ := Option.map_eq_some_iff.1 he
        refine .both K.carries K.plain (lists_carried hq hv (encEach_text hf he₂) ?_) .nil
        intro k hk
        exact each_car (H v _ _ _ hv hxk.depth hxk.distinct) hd he₂ k hk

/-- A field before others: what is read for the others. -/
theorem dec_elem_none {α β : Type} {f : XField α} {F : XFields β} {m : String} {as : List (String × String)} {ks : List Xml}
    {b : α × β} (h : (XFields.elem f F).dec (.elem m as ks) (XFields.elem f F).zero = some b)
    (hn : ks.filter (Xml.isElem f.name) = []) : b.1 = f.zero ∧ F.dec (.elem m as ks) F.zero = some b.2 := by
  have hattrs : ∀ as (b b' : α × β), (XFields.elem f F).decAttrs as b = some b' → b'.1 = b.1 ∧ F.decAttrs as b.2 = some b'.2 := by
    intro as
    induction as with
    | nil => intro b b' h; cases h; exact ⟨rfl, rfl⟩
    | cons kv as ih =>
      intro b b' h
      simp only [XFields.decAttrs, XFields.setAttr] at h ⊢
      split at h
      · cases h
      · rename_i c hc
        rw [Option.map_eq_some_iff] at hc
        obtain ⟨d, hd, rfl⟩ := hc
        rw [hd]
        exact ih _ _ h
  simp only [XFields.dec, Xml.attrs, Xml.kids] at h ⊢
  split at h
  · cases h
  · rename_i b₁ h₁
    obtain ⟨hz, h₁⟩ := hattrs _ _ _ h₁
    split at h
    · cases h
    · rename_i b₂ h₂
      obtain ⟨h₃, h₄⟩ := decKids_split _ _ h₂
      rw [hn] at h₃
      cases h
      have : (ks.filter fun k => !k.isElem f.name) = ks := by
        rw [List.filter_eq_self]
        intro k hk
        rw [List.filter_eq_nil_iff] at hn
        simpa using hn k hk
      rw [this] at h₄
      have h₁ : F.decAttrs as F.zero = some b₁.2 := h₁
      rw [h₁]
      simp only [h₄]
      refine ⟨?_, rfl⟩
      have := (Option.some.inj h₃).symm
      rw [hz] at this
      exact this

/-- Elements that are read from an enclosing element into a struct with fields for other elements. -/
theorem raw_first {α β : Type} {f : XField α} {F : XFields β} (ha : F.attrNames = []) (ht : F.texts = 0) {x : Xml} {p : α × β}
    (h : (XFields.elem f F).dec x (XFields.elem f F).zero = some p) :
    XField.decAll f.dec (x.kids.filter (Xml.isElem f.name)) f.zero = some p.1 ∧
      XField.decAll F.setKid (x.kids.filter fun k => !k.isElem f.name) F.zero = some p.2 := by
  simp only [XFields.dec] at h
  rw [decAttrs_apart (by simp only [XFields.attrNames, ha]; simp)] at h
  simp only [XFields.setText_of_none (XFields.elem f F) ht] at h
  split at h
  · cases h
  · rename_i b hb
    cases h
    exact decKids_split f F hb

theorem filter_elem_ne {m m' : String} (hm : m ≠ m') (ks : List Xml) :
    (ks.filter fun k => !k.isElem m).filter (Xml.isElem m') = ks.filter (Xml.isElem m') := by
  rw [List.filter_filter]
  congr 1
  funext k
  cases k with
  | text s => rfl
  | elem n as ls =>
    by_cases h : n = m'
    · subst h; simp [Xml.isElem, hm.symm]
    · simp [Xml.isElem, h]

theorem nlist_dec {α : Type} {m m' : String} {oe : Bool} {c : XCodec α} {x : Xml} {a : PSlice α} :
    (XField.nlist m m' oe c).dec x a =
      XField.decAll (XField.list m' oe c).dec (x.kids.filter (Xml.isElem m')) a := by
  simp only [XField.nlist, decInner_filter]
  rfl

theorem push_ofList {α : Type} (l : List α) (a : α) : XField.push (XField.ofList l) a = XField.ofList (l ++ [a]) := by
  cases l <;> rfl

theorem ofList_read {α : Type} {m : String} {oe : Bool} {c : XCodec α} {xs : List Xml} {a : PSlice α}
    (h : XField.decAll (XField.list m oe c).dec xs .nil = some a) : XField.ofList a.elems = a := by
  obtain ⟨bs, h₁, h₂, h₃, h₄⟩ := list_read h
  cases h₂ with
  | nil => rw [h₃ rfl]; rfl
  | cons _ _ =>
    obtain ⟨l, rfl⟩ := h₄ (by simp)
    simp only [PSlice.elems] at h₁
    subst h₁
    rfl

/-- A field that is written otherwise too. -/
theorem ECar.mod' {α : Type} {n : Nat} {p : XPlace} {f f' : XField α} (E : ECar n p f) (ho : p.once f.name = true)
    (hn : f'.name = f.name) (hz : f'.enc f'.zero = f.enc f.zero) (hnm : ∀ a ys, f'.enc a = some ys → ∀ y ∈ ys, y.isElem f'.name = true)
    (h : ∀ v x a', XKid n v p f.name x → f'.dec x f'.zero = some a' → ∃ a, f.dec x f.zero = some a ∧ f.enc a = f'.enc a') :
    ECar n p f' := by
  refine ⟨hnm, ?_⟩
  intro v xs a ys hx hl hd he
  rw [hn] at hx hl ⊢
  rcases length_le_one (hl ho) with rfl | ⟨x, rfl⟩
  · cases hd
    exact E.car v [] f.zero ys hx hl rfl (by rw [← hz]; exact he)
  · rw [XField.decAll_single] at hd
    obtain ⟨b, hb, hbe⟩ := h v x a (hx x (by simp)) hd
    exact E.car v [x] b ys hx hl (by rw [XField.decAll_single]; exact hb) (by rw [hbe]; exact he)

/-- Two attributes that are texts. -/
theorem decAttrs_two {β : Type} {F : XFields β} {nm nm' : String} {oe oe' : Bool} (hF : F.attrNames = []) (hne : nm ≠ nm') :
    ∀ {as : List (String × String)} {b : String × String × β},
    (XFields.attr nm oe XText.string (.attr nm' oe' XText.string F)).decAttrs as b =
      some (X.lastAttr nm as b.1, X.lastAttr nm' as b.2.1, b.2.2)
  | [], b => rfl
  | kv :: as, b => by
    simp only [XFields.decAttrs, XFields.setAttr]
    by_cases h₁ : kv.1 = nm
    · have h₂ : ¬ kv.1 = nm' := fun h => hne (h₁.symm.trans h)
      simp only [h₁, if_true, XText.string, Option.map_some]
      have := decAttrs_two (oe := oe) (oe' := oe') hF hne (as := as) (b := (kv.2, b.2))
      simp only [X.lastAttr, List.foldl_cons, h₁, hne, if_true, if_false] at this ⊢
      exact this
    · by_cases h₂ : kv.1 = nm'
      · have hne' : ¬ nm' = nm := fun h => hne h.symm
        simp only [h₂, hne', if_true, if_false, XText.string, Option.map_some]
        have := decAttrs_two (oe := oe) (oe' := oe') hF hne (as := as) (b := (b.1, kv.2, b.2.2))
        simp only [X.lastAttr, List.foldl_cons, h₂, hne', if_true, if_false] at this ⊢
        exact this
      · have h₃ := setAttr_apart F (kv := kv) b.2.2 (by rw [hF]; simp)
        simp only [h₁, h₂, if_false, h₃, Option.map_some]
        have := decAttrs_two (oe := oe) (oe' := oe') hF hne (as := as) (b := b)
        simp only [X.lastAttr, List.foldl_cons, h₁, h₂, if_false] at this ⊢
        exact this

/-- One attribute that is a text. -/
theorem decAttrs_one {β : Type} {F : XFields β} {nm : String} {oe : Bool} (hF : F.attrNames = []) :
    ∀ {as : List (String × String)} {b : String × β},
    (XFields.attr nm oe XText.string F).decAttrs as b = some (X.lastAttr nm as b.1, b.2)
  | [], b => rfl
  | kv :: as, b => by
    simp only [XFields.decAttrs, XFields.setAttr]
    by_cases h₁ : kv.1 = nm
    · simp only [h₁, if_true, XText.string, Option.map_some]
      have := decAttrs_one (oe := oe) hF (as := as) (b := (kv.2, b.2)) (nm := nm)
      simp only [X.lastAttr, List.foldl_cons, h₁, if_true] at this ⊢
      exact this
    · have h₃ := setAttr_apart F (kv := kv) b.2 (by rw [hF]; simp)
      simp only [h₁, if_false, h₃, Option.map_some]
      have := decAttrs_one (oe := oe) hF (as := as) (b := b) (nm := nm)
      simp only [X.lastAttr, List.foldl_cons, h₁, if_false] at this ⊢
      exact this

/-! ### Data classifications -/

/-- The classification of data and its flow. -/
def classificationField : XField (String × String) where
  name := "classification"
  enc p := some (if p.2 ≠ "" ∨ p.1 ≠ "" then
    [.elem "classification" (X.attrUnlessEmpty "flow" p.1) (textKids (sanitize p.2))] else [])
  dec x old := some (X.lastAttr "flow" x.attrs old.1, textOf x.kids)
  zero := ("", "")
  norm p := p

/-- The same as a struct. -/
def classificationRaw : XFields (String × String × Unit) := .attr "flow" true XText.string <| .chardata .nil

theorem ec_classification (n : Nat) : ECar n .dataflow classificationField := by
  have C : CCar n (XCodec.struct classificationRaw id id) .dataClassification .dataClassification :=
    (ccar_struct classificationRaw _ _ (fun _ => rfl) (ca_attr (ac_some (k := none) te rfl) az_text <| ca_chardata ca_nil) rfl).mono
      (Nat.le_succ n)
  have K : KAt .dataflow "classification" .dataClassification .dataClassification := kat rfl rfl rfl
  refine ⟨fun a ys h y hy => ?_, ?_⟩
  · simp only [classificationField] at h
    cases h
    split at hy
    · simp only [List.mem_singleton] at hy; subst hy; simp [Xml.isElem, classificationField]
    · cases hy
  intro v xs a ys hx hl hd he
  refine ⟨fun h => absurd h K.read, fun _ => ?_⟩
  rcases length_le_one (hl rfl) with rfl | ⟨x, rfl⟩
  · cases hd; cases he; exact .nil
  · have hxk := hx x (by simp)
    rw [XField.decAll_single] at hd
    have hm := hxk.named
    cases x with
    | text s => cases hm
    | elem m₀ as ks =>
      cases hd
      have hraw : (XCodec.struct classificationRaw id id).dec (.elem m₀ as ks) (XCodec.struct classificationRaw id id).zero =
          some (X.lastAttr "flow" as "", textOf ks, ()) := by
        simp only [XCodec.struct, id, XFields.dec, classificationRaw, Xml.attrs, Xml.kids, Option.map_eq_some_iff]
        rw [decAttrs_one rfl]
        have hk : XField.decAll (XFields.attr "flow" true XText.string <| .chardata .nil).setKid ks
            (X.lastAttr "flow" as "", "", ()) = some (X.lastAttr "flow" as "", "", ()) :=
          decKids_apart (by intro x _ m hm; cases hm)
        simp only [XFields.zero, XText.string] at hk ⊢
        rw [hk]
        exact ⟨_, rfl, rfl⟩
      have henc : (XCodec.struct classificationRaw id id).enc "classification" (X.lastAttr "flow" as "", textOf ks, ()) =
          some (some (.elem "classification" (X.attrUnlessEmpty "flow" (X.lastAttr "flow" as "")) (textKids (sanitize (textOf ks))))) := by
        simp only [XCodec.struct, id, classificationRaw, XFields.encKids, XFields.encAttrs, Option.map_some, List.append_nil,
          X.attrUnlessEmpty, XText.string]
        by_cases h : X.lastAttr "flow" as "" = "" <;> simp [h]
      have hcar := (C.car v "classification" _ _ _ hxk.depth hm (K.valid hxk) hxk.distinct hraw henc).1 _ rfl
      simp only [classificationField, Xml.attrs, Xml.kids] at he
      by_cases hn : textOf ks ≠ "" ∨ X.lastAttr "flow" as "" ≠ ""
      · rw [if_pos hn] at he
        cases he
        exact .both K.carries K.plain hcar .nil
      · rw [if_neg hn] at he
        cases he
        refine .drop K.carries ?_ .nil
        have h₁ : textOf ks = "" := Classical.byContradiction fun h => hn (.inl h)
        have h₂ : X.lastAttr "flow" as "" = "" := Classical.byContradiction fun h => hn (.inr h)
        rw [h₁, h₂] at hcar
        exact hcar.blank rfl fun _ => h₁

/-- The URLs of a source or destination. -/
def urlsField (name : String) : XField (PSlice String) where
  name := name
  enc p := some (X.urlsElem name p)
  dec x old := (X.urls name x.kids).map fun us => if us ≠ [] then .list us else old
  zero := .nil
  norm p := p

theorem read_texts {m : String} {oe : Bool} : ∀ (xs : List Xml) (l : List String),
    XField.decAll (XField.list m oe X.string).dec xs (XField.ofList l) = some (XField.ofList (l ++ xs.map fun x => textOf x.kids))
  | [], l => by simp [XField.decAll]
  | x :: xs, l => by
    have ih := read_texts (m := m) (oe := oe) xs (l ++ [textOf x.kids])
    rw [← push_ofList] at ih
    simp only [XField.decAll, XField.list, XCodec.simple, XText.string, Option.map_some] at ih ⊢
    rw [ih]
    simp

theorem write_texts {m : String} : ∀ (us : List String),
    XField.encList m false X.string us = some (us.map fun u => .elem m [] (textKids (sanitize u)))
  | [] => rfl
  | u :: us => by
    simp only [XField.encList, write_texts us, Bool.false_and, Bool.false_eq_true, if_false]
    rfl

theorem filter_only {m : String} : ∀ {ks : List Xml}, (∀ k bs ls, Xml.elem k bs ls ∈ ks → k ∈ [m]) →
    ks.filter (Xml.isElem m) = Xml.elements ks
  | [], _ => rfl
  | .text s :: ks, h => by
    have := filter_only (ks := ks) (m := m) fun k bs ls hk => h k bs ls (by simp [hk])
    rw [List.filter_cons_of_neg (by simp [Xml.isElem]), this]
    rfl
  | .elem k bs ls :: ks, h => by
    have := filter_only (ks := ks) (m := m) fun k bs ls hk => h k bs ls (by simp [hk])
    have hk := h k bs ls (by simp)
    simp only [List.mem_singleton] at hk
    subst hk
    rw [List.filter_cons_of_pos (by simp [Xml.isElem]), this]
    rfl

theorem ec_urls (n : Nat) {m : String} (K : KAt .dataflow m .issueTypeReferences .issueTypeReferences)
    (ho : XPlace.dataflow.once m = true) : ECar n .dataflow (urlsField m) := by
  have E : ECar n .dataflow (.nlist m "url" false X.string) :=
    ec_nlist (q := .issueTypeReferences) (ec_list_text (tat (q := .text) (k := none) rfl rfl rfl rfl) tl_false) K ho rfl
  refine E.mod' ho rfl rfl ?_ ?_
  · intro a ys h y hy
    cases h
    simp only [X.urlsElem] at hy
    split at hy
    · cases hy
    · simp only [List.mem_singleton] at hy; subst hy; simp [Xml.isElem, urlsField]
  · intro v x a hx h
    have hv := K.valid hx
    cases x with
    | text s => cases hx.named
    | elem m₀ as ks =>
      have only : ∀ k bs ls, Xml.elem k bs ls ∈ ks → k ∈ ["url"] := fun k bs ls h => kid_name hv h
      have hu : X.urls m ks = some ((Xml.elements ks).map fun x => textOf x.kids) := by
        simp only [X.urls, spliced_elements only, Option.map_some]
      have h : (X.urls m ks).map (fun us => if us ≠ [] then PSlice.list us else .nil) = some a := h
      rw [hu, Option.map_some, Option.some.injEq] at h
      refine ⟨XField.ofList ((Xml.elements ks).map fun x => textOf x.kids), ?_, ?_⟩
      · rw [nlist_dec]
        simp only [Xml.kids, filter_only only]
        exact read_texts (Xml.elements ks) []
      · subst h
        generalize ((Xml.elements ks).map fun x => textOf x.kids) = l
        cases l with
        | nil => rfl
        | cons u us =>
          simp only [ne_eq, reduceCtorEq, not_false_eq_true, if_true, urlsField, X.urlsElem, PSlice.elems, XField.ofList, XField.nlist,
            write_texts, Option.map_some]

theorem decAll_elements {σ : Type} {step : Xml → σ → Option σ} (hs : ∀ s a, step (.text s) a = some a) :
    ∀ (ks : List Xml) (a : σ), XField.decAll step (Xml.elements ks) a = XField.decAll step ks a
  | [], _ => rfl
  | .text s :: ks, a => by
    have : Xml.elements (.text s :: ks) = Xml.elements ks := rfl
    rw [this, decAll_elements hs ks a]
    simp only [XField.decAll, hs]
  | .elem m bs ls :: ks, a => by
    have : Xml.elements (.elem m bs ls :: ks) = .elem m bs ls :: Xml.elements ks := rfl
    rw [this]
    simp only [XField.decAll]
    split
    · rfl
    · exact decAll_elements hs ks _

end Verif
