import Verif.Spec.Members
import Verif.Json.StructLaws

/-!
# Lemmas about the members of objects
-/

namespace Verif
open Json

/-- `F.Has name always d get put`: the list of fields has this one. -/
inductive JFields.Has : {β : Type} → JFields β → String → Bool → {α : Type} → JCodec α → (β → α) →
    (β → α → β) → Prop
  | here {α β : Type} {n : String} {oe : Bool} {c : JCodec α} {F : JFields β} :
      JFields.Has (.field n oe c F) n (!oe) c Prod.fst (fun b a => (a, b.2))
  | skip {α β γ : Type} {n : String} {a : Bool} {c : JCodec α} {F : JFields β} {z : γ} {g : β → α} {p : β → α → β} :
      JFields.Has F n a c g p → JFields.Has (.skip z F) n a c (fun b => g b.2) (fun b v => (b.1, p b.2 v))
  | there {α β γ : Type} {n n' : String} {a oe' : Bool} {c : JCodec α} {c' : JCodec γ} {F : JFields β} {g : β → α}
      {p : β → α → β} : JFields.Has F n a c g p →
      JFields.Has (.field n' oe' c' F) n a c (fun b => g b.2) (fun b v => (b.1, p b.2 v))

theorem JFields.enc_names : ∀ {β : Type} {F : JFields β} {b : β} {ms : List (String × Json)}, F.enc b = some ms →
    ∀ m ∈ ms, m.1 ∈ F.names
  | _, .nil, _, ms, h, m, hm => by
    simp only [JFields.enc, Option.some.injEq] at h
    subst h
    cases hm
  | _, .skip _ F, b, ms, h, m, hm => by
    simp only [JFields.enc] at h
    exact JFields.enc_names h m hm
  | _, .field n oe c F, b, ms, h, m, hm => by
    simp only [JFields.enc] at h
    simp only [JFields.names, List.mem_cons]
    split at h
    · exact .inr (JFields.enc_names h m hm)
    · split at h
      · cases h
      · obtain ⟨ms', h', rfl⟩ := Option.map_eq_some_iff.1 h
        rcases List.mem_cons.1 hm with rfl | hm
        · exact .inl rfl
        · exact .inr (JFields.enc_names h' m hm)

theorem called_none {n : String} {ns : List String} {ms : List (String × Json)} (hm : ∀ m ∈ ms, m.1 ∈ ns)
    (hn : foldKey n ∉ ns.map foldKey) : called n ms = [] := by
  unfold called
  rw [List.filter_eq_nil_iff]
  intro m h e
  simp only [decide_eq_true_eq] at e
  exact hn (List.mem_map.2 ⟨m.1, hm m h, e⟩)

theorem JFields.Has.mem {β α : Type} {F : JFields β} {n : String} {a : Bool} {c : JCodec α} {g : β → α}
    {p : β → α → β} (h : F.Has n a c g p) : n ∈ F.names := by
  induction h with
  | here => simp [JFields.names]
  | skip _ ih => simpa [JFields.names] using ih
  | there _ ih => simp [JFields.names, ih]

theorem JFields.Has.written {β α : Type} {F : JFields β} {n : String} {a : Bool} {c : JCodec α} {g : β → α}
    {p : β → α → β} (h : F.Has n a c g p) : F.NamesDistinct → ∀ b ms, F.enc b = some ms →
    if a = false ∧ c.empty (g b) = true then called n ms = []
    else ∃ j, c.enc (g b) = some j ∧ called n ms = [(n, j)] := by
  induction h with
  | @here α β n oe c F =>
    intro hd b ms h
    have hd' : foldKey n ∉ F.names.map foldKey := (List.nodup_cons.1 hd).1
    simp only [JFields.enc] at h
    cases oe with
    | false =>
      simp only [Bool.false_and, Bool.false_eq_true, if_false] at h
      simp only [Bool.not_false, Bool.true_eq_false, false_and, if_false]
      split at h
      · cases h
      · rename_i j hj
        obtain ⟨ms', h', rfl⟩ := Option.map_eq_some_iff.1 h
        refine ⟨j, hj, ?_⟩
        have := called_none (JFields.enc_names h') hd'
        unfold called at this ⊢
        rw [List.filter_cons_of_pos (by simp), this]
    | true =>
      simp only [Bool.true_and] at h
      simp only [Bool.not_true, true_and]
      split at h
      · rename_i he
        rw [if_pos he]
        exact called_none (JFields.enc_names h) hd'
      · rename_i he
        rw [if_neg he]
        split at h
        · cases h
        · rename_i j hj
          obtain ⟨ms', h', rfl⟩ := Option.map_eq_some_iff.1 h
          refine ⟨j, hj, ?_⟩
          have := called_none (JFields.enc_names h') hd'
          unfold called at this ⊢
          rw [List.filter_cons_of_pos (by simp), this]
  | skip _ ih =>
    intro hd b ms h
    simp only [JFields.enc] at h
    exact ih hd b.2 ms h
  | @there α β γ n n' a oe' c c' F g p hF ih =>
    intro hd b ms h
    have hd' := List.nodup_cons.1 hd
    have hne : foldKey n' ≠ foldKey n := fun e => hd'.1 (e ▸ List.mem_map.2 ⟨n, hF.mem, rfl⟩)
    simp only [JFields.enc] at h
    split at h
    · exact ih hd'.2 b.2 ms h
    · split at h
      · cases h
      · obtain ⟨ms', h', rfl⟩ := Option.map_eq_some_iff.1 h
        have := ih hd'.2 b.2 ms' h'
        unfold called at this ⊢
        rw [List.filter_cons_of_neg (by simpa using hne)]
        exact this

theorem JFields.Has.set {β α : Type} {F : JFields β} {n : String} {a : Bool} {c : JCodec α} {g : β → α}
    {p : β → α → β} (h : F.Has n a c g p) : F.NamesDistinct → ∀ j b, F.set n j b = (c.dec j (g b)).map (p b) := by
  induction h with
  | here => intro _ j b; simp only [JFields.set, if_true]
  | skip _ ih => intro hd j b; simp only [JFields.set]; rw [ih hd]; simp [Function.comp_def]
  | @there α β γ n n' a oe' c c' F g p hF ih =>
    intro hd j b
    have hd' := List.nodup_cons.1 hd
    have hne : foldKey n ≠ foldKey n' := fun e => hd'.1 (e ▸ List.mem_map.2 ⟨n, hF.mem, rfl⟩)
    simp only [JFields.set, if_neg hne]
    rw [ih hd'.2]
    simp [Function.comp_def]

theorem JFields.set_other : ∀ {β : Type} {F : JFields β} {k : String} {j : Json} {b : β},
    (∀ n ∈ F.names, foldKey k ≠ foldKey n) → F.set k j b = some b
  | _, .nil, _, _, _, _ => rfl
  | _, .skip _ F, _, _, b, h => by simp only [JFields.set]; rw [JFields.set_other (F := F) h]; rfl
  | _, .field n _ c F, k, j, b, h => by
    simp only [JFields.set]
    rw [if_neg (h n (by simp [JFields.names])), JFields.set_other fun m hm => h m (by simp [JFields.names, hm])]
    rfl

theorem struct_object {σ β : Type} (F : JFields β) (toP : σ → β) (ofP : β → σ) (h1 : ∀ s, ofP (toP s) = s)
    (h2 : ∀ b, toP (ofP b) = b) (names : List String) (hn : F.names = names) :
    Object (JCodec.struct F toP ofP) names where
  written x j h := by
    obtain ⟨ms, h', rfl⟩ := Option.map_eq_some_iff.1 h
    subst hn
    exact ⟨ms, rfl, JFields.enc_names h'⟩
  empty x := by
    show ((F.decMembers [] (toP x)).map ofP) = _
    simp only [JFields.decMembers, Option.map_some, h1]
  read m ms x := by
    show ((F.decMembers (m :: ms) (toP x)).map ofP) =
      ((F.decMembers [m] (toP x)).map ofP).bind fun y => (F.decMembers ms (toP y)).map ofP
    simp only [JFields.decMembers]
    cases F.set m.1 m.2 (toP x) with
    | none => rfl
    | some b => simp only [Option.map_some, Option.bind_some, h2]
  other k j x h := by
    show ((F.decMembers [(k, j)] (toP x)).map ofP) = _
    simp only [JFields.decMembers]
    rw [JFields.set_other (hn ▸ h)]
    simp only [Option.map_some, h1]

theorem struct_member {σ β α : Type} {F : JFields β} {toP : σ → β} {ofP : β → σ} {n : String} {a : Bool}
    {c : JCodec α} {g : β → α} {p : β → α → β} (h : F.Has n a c g p) (hd : F.NamesDistinct)
    {get : σ → α} {put : σ → α → σ} (hg : ∀ s, get s = g (toP s)) (hp : ∀ s v, put s v = ofP (p (toP s) v)) :
    Member (JCodec.struct F toP ofP) n a c get put where
  written x ms hx := by
    obtain ⟨ms', hx, e⟩ := Option.map_eq_some_iff.1 hx
    cases e
    rw [hg]
    exact h.written hd (toP x) ms hx
  read j x := by
    show ((F.decMembers [(n, j)] (toP x)).map ofP) = _
    simp only [JFields.decMembers]
    rw [h.set hd, hg]
    cases c.dec j (g (toP x)) with
    | none => rfl
    | some v => simp only [Option.map_some, hp]

theorem Object.congr {σ : Type} {c c' : JCodec σ} {names : List String} (h : Object c names)
    (he : ∀ x j, c'.enc x = some j → c.enc x = some j) (hd : ∀ j x, c'.dec j x = c.dec j x) : Object c' names where
  written x j hx := h.written x j (he x j hx)
  empty x := by rw [hd]; exact h.empty x
  read m ms x := by
    have : c'.dec (.obj ms) = c.dec (.obj ms) := funext fun y => hd _ y
    rw [hd, hd, this]; exact h.read m ms x
  other k j x hk := by rw [hd]; exact h.other k j x hk

theorem Member.congr {σ α : Type} {c c' : JCodec σ} {n : String} {a : Bool} {d : JCodec α} {get : σ → α}
    {put : σ → α → σ} (h : Member c n a d get put) (he : ∀ x j, c'.enc x = some j → c.enc x = some j)
    (hd : ∀ j x, c'.dec j x = c.dec j x) : Member c' n a d get put where
  written x ms hx := h.written x ms (he x _ hx)
  read j x := by rw [hd]; exact h.read j x

end Verif
