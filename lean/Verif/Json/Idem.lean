import Verif.Json.Obs

/-!
# Decoding a value again into what it was decoded into changes nothing: the combinators and hand-written codecs
-/

namespace Verif

set_option linter.unusedSectionVars false

/-- Decoding the value again changes nothing. -/
class JIdem {α : Type} (c : JCodec α) : Prop where
  idem : ∀ j a b, j.Distinct → c.dec j a = some b → c.dec j b = some b

/-- The same for the members of an object. -/
class JFieldsIdem {β : Type} (F : JFields β) : Prop where
  idem : ∀ ms a b, Json.Distinct (.obj ms) → F.decMembers ms a = some b → F.decMembers ms b = some b

theorem distinct_selected {n : String} {ms : List (String × Json)} (h : Json.Distinct (.obj ms)) :
    selected n ms = [] ∨ ∃ j, selected n ms = [j] ∧ j.Distinct := by
  obtain ⟨hn, h⟩ := h
  rw [distinctM_iff] at h
  induction ms with
  | nil => exact .inl rfl
  | cons m ms ih =>
    have hn : (Json.foldKey m.1 :: ms.map fun m => Json.foldKey m.1).Nodup := hn
    by_cases e : Json.foldKey m.1 = Json.foldKey n
    · right
      refine ⟨m.2, ?_, h m (by simp)⟩
      have : selected n ms = [] := by
        simp only [selected, List.map_eq_nil_iff, List.filter_eq_nil_iff, decide_eq_true_eq]
        intro x hx e'
        exact (List.nodup_cons.1 hn).1 (List.mem_map.2 ⟨x, hx, e'.trans e.symm⟩)
      simp only [selected] at this
      simp only [selected, List.filter_cons, e, decide_true, if_true, List.map_cons, this]
    · have := ih (List.nodup_cons.1 hn).2 fun m hm => h m (by simp [hm])
      simp only [selected] at this
      simpa only [selected, List.filter_cons, e, decide_false, Bool.false_eq_true, if_false] using this

theorem distinct_unselected {n : String} {ms : List (String × Json)} (h : Json.Distinct (.obj ms)) :
    Json.Distinct (.obj (unselected n ms)) :=
  ⟨h.1.sublist (List.Sublist.map _ List.filter_sublist),
    (distinctM_iff _).2 fun m hm => (distinctM_iff ms).1 h.2 m (List.mem_filter.1 hm).1⟩

instance : JIdem JCodec.string := ⟨fun j a b _ h => by cases j <;> simp_all [JCodec.string]⟩
instance : JIdem JCodec.bool := ⟨fun j a b _ h => by cases j <;> simp_all [JCodec.bool]⟩
instance : JIdem JCodec.int := ⟨fun j a b _ h => by cases j <;> simp_all [JCodec.int]⟩
instance [FloatIO] : JIdem JCodec.f32 := ⟨fun j a b _ h => by cases j <;> simp_all [JCodec.f32]⟩
instance [FloatIO] : JIdem JCodec.f64 := ⟨fun j a b _ h => by cases j <;> simp_all [JCodec.f64]⟩
instance [FloatIO] : JIdem J.bomReference := ⟨fun j a b _ h => by cases j <;> simp_all [J.bomReference]⟩
instance [FloatIO] : JIdem J.specVersion := ⟨fun j a b _ h => by cases j <;> simp_all [J.specVersion]⟩

instance {α : Type} (c : JCodec α) [L : JIdem c] : JIdem (JCodec.option c) := ⟨fun j a b hj h => by
  by_cases e : j = .null
  · subst e; simp only [JCodec.option] at h ⊢; cases h; rfl
  · rw [option_dec_ne_null c e] at h ⊢
    obtain ⟨x, hx, rfl⟩ := Option.map_eq_some_iff.1 h
    rw [Option.getD_some, L.idem j _ x hj hx]; rfl⟩

theorem decList_idem {α : Type} (c : JCodec α) [L : JIdem c] : ∀ (js : List Json) (as bs : List α),
    (∀ j ∈ js, j.Distinct) → JCodec.decList c js as = some bs → JCodec.decList c js bs = some bs
  | [], _, _, _, h => by simp only [JCodec.decList] at h ⊢; exact h
  | j :: js, as, bs, hj, h => by
    simp only [JCodec.decList] at h
    split at h
    · cases h
    · rename_i a ha
      obtain ⟨bs', hb, rfl⟩ := Option.map_eq_some_iff.1 h
      have h1 := L.idem j _ a (hj j (by simp)) ha
      have h2 := decList_idem c js _ bs' (fun k hk => hj k (by simp [hk])) hb
      simp only [JCodec.decList, List.headD_cons, List.tail_cons, h1, h2, Option.map_some]

instance {α : Type} (c : JCodec α) [L : JIdem c] : JIdem (JCodec.pslice c) := ⟨fun j a b hj h => by
  cases j with
  | arr js =>
    simp only [JCodec.pslice] at h ⊢
    obtain ⟨xs, hx, rfl⟩ := Option.map_eq_some_iff.1 h
    rw [PSlice.elems, decList_idem c js _ xs ((distinctL_iff js).1 hj) hx]; rfl
  | null => exact h
  | _ => cases h⟩

instance : JFieldsIdem .nil := ⟨fun _ _ _ _ h => h⟩
instance {α β : Type} (z : α) (F : JFields β) [L : JFieldsIdem F] : JFieldsIdem (.skip z F) :=
  ⟨fun ms a b hj h => by
    rw [decMembers_skip] at h
    obtain ⟨b', hb, rfl⟩ := Option.map_eq_some_iff.1 h
    rw [decMembers_skip, L.idem ms _ b' hj hb]; rfl⟩
instance {α β : Type} (n : String) (oe : Bool) (c : JCodec α) (F : JFields β) [Lc : JIdem c]
    [L : JFieldsIdem F] : JFieldsIdem (.field n oe c F) :=
  ⟨fun ms a b hj h => by
    obtain ⟨a1, a2⟩ := a
    rw [decMembers_field] at h
    obtain ⟨b1, hb1, h⟩ := Option.bind_eq_some_iff.1 h
    obtain ⟨b2, hb2, rfl⟩ := Option.map_eq_some_iff.1 h
    rw [decMembers_field, L.idem _ _ b2 (distinct_unselected hj) hb2]
    rcases distinct_selected (n := n) hj with e | ⟨j, e, hjj⟩
    · rw [e]; rfl
    · rw [e] at hb1 ⊢
      have h1 : c.dec j a1 = some b1 := by
        simp only [JCodec.decAll] at hb1
        split at hb1
        · cases hb1
        · cases hb1; assumption
      simp only [JCodec.decAll, Lc.idem j a1 b1 hjj h1]; rfl⟩

theorem struct_idem {σ β : Type} (F : JFields β) (toP : σ → β) (ofP : β → σ) [L : JFieldsIdem F]
    (hP : ∀ p, toP (ofP p) = p) : JIdem (JCodec.struct F toP ofP) := ⟨fun j a b hj h => by
  cases j with
  | obj ms =>
    simp only [JCodec.struct] at h ⊢
    obtain ⟨p, hp, rfl⟩ := Option.map_eq_some_iff.1 h
    rw [hP, L.idem ms _ p hj hp]; rfl
  | null => exact rfl
  | _ => cases h⟩

variable [FloatIO]

theorem ikev2_idem {σ β : Type} {F : JFields β} {toP : σ → β} {ofP : β → σ}
    (get : σ → BOMReference) (put : σ → BOMReference → σ) [L : JIdem (JCodec.struct F toP ofP)]
    (hput : ∀ v r, put (put v r) r = put v r) :
    JIdem (J.ikev2 (JCodec.struct F toP ofP) get put) := ⟨fun j a b hj h => by
  cases j with
  | str s =>
    simp only [J.ikev2, Option.some.injEq] at h ⊢
    subst h; exact hput _ _
  | null => exact L.idem .null a b hj h
  | bool t => exact L.idem (.bool t) a b hj h
  | num t => exact L.idem (.num t) a b hj h
  | arr t => exact L.idem (.arr t) a b hj h
  | obj t => exact L.idem (.obj t) a b hj h⟩

theorem knot_idem {α : Type} {zero : α} {N : Nat → JCodec α} {height : α → Nat}
    (_ : Knotted zero N height) (L : ∀ n, JIdem (N n)) : JIdem (J.knot zero N height) := ⟨fun j a b hj h =>
  (L (j.depth + 1)).idem j a b hj h⟩

instance {α : Type} (z : α) : JIdem (J.bottom z) := ⟨fun _ _ _ _ h => by cases h⟩

instance : JIdem J.environmentVariableChoice := ⟨fun j a b hj h => by
  cases j with
  | obj ms =>
    simp only [J.environmentVariableChoice] at h ⊢
    split at h
    · cases h
    · split at h
      · rename_i hp; cases h; rw [if_pos hp]
      · rename_i hp; cases h; rw [if_neg hp]
  | str s => cases h; rfl
  | null => cases h; rfl
  | _ => cases h⟩

instance : JIdem J.mlDatasetChoice := ⟨fun j a b hj h => by
  simp only [J.mlDatasetChoice] at h ⊢
  split at h
  · cases h
  · split at h
    · rename_i hr; cases h; rw [if_pos hr]
    · rename_i hr
      split at h
      · cases h
      · rename_i hd
        split at h
        · rename_i hp; cases h; rw [if_neg hr, if_pos hp]
        · rename_i hp; cases h; rw [if_neg hr, if_neg hp]⟩

instance : JIdem J.certificateState := ⟨fun j a b hj h => by
  simp only [J.certificateState] at h ⊢
  split at h
  · cases h
  · split at h
    · rename_i hs
      split at h
      · cases h
      · rename_i hd; cases h; simp only [hs, hd, ne_eq, not_false_eq_true, if_true]
    · rename_i hs
      split at h
      · cases h
      · rename_i hd; cases h; simp only [hs, hd, if_false]⟩

instance : JIdem J.certificateExtension := ⟨fun j a b hj h => by
  simp only [J.certificateExtension] at h ⊢
  split at h
  · cases h
  · split at h
    · rename_i hs
      split at h
      · cases h
      · rename_i hd; cases h; simp only [hs, hd, ne_eq, not_false_eq_true, if_true]
    · rename_i hs
      split at h
      · cases h
      · rename_i hd; cases h; simp only [hs, hd, if_false]⟩

instance : JIdem J.patentChoice := ⟨fun j a b hj h => by
  simp only [J.patentChoice] at h ⊢
  split at h
  · cases h
  · split at h
    · rename_i hs
      split at h
      · cases h
      · rename_i hd; cases h; simp only [hs, hd, ne_eq, not_false_eq_true, if_true]
    · rename_i hs
      split at h
      · cases h
      · rename_i hd; cases h; simp only [hs, hd, if_false]⟩

instance : JIdem J.evidenceIdentityChoice := ⟨fun j a b hj h => by
  simp only [J.evidenceIdentityChoice] at h ⊢
  split at h
  · split at h <;> cases h; rfl
  · split at h <;> cases h; rfl⟩

instance : JIdem J.toolsChoice := ⟨fun j a b hj h => by
  simp only [J.toolsChoice] at h ⊢
  split at h
  · split at h <;> cases h; rfl
  · split at h
    · cases h
    · split at h
      · rename_i hp; cases h; rw [if_pos hp]
      · rename_i hp; cases h; rw [if_neg hp]⟩

instance : JIdem J.asserterChoice := ⟨fun j a b hj h => by
  cases j with
  | obj ms =>
    simp only [J.asserterChoice] at h ⊢
    split at h
    · obtain ⟨x, hx, rfl⟩ := Option.map_eq_some_iff.1 h; simp only [hx]; rfl
    · obtain ⟨x, hx, rfl⟩ := Option.map_eq_some_iff.1 h; simp only [hx]; rfl
    · obtain ⟨x, hx, rfl⟩ := Option.map_eq_some_iff.1 h; simp only [hx]; rfl
    · cases h; rfl
  | null => cases h; rfl
  | _ => cases h⟩

end Verif
