import Verif.Spec.XmlSchema

/-!
# Finding out that a given document has the form that a schema declares

Used for the examples beside the theorems: `xvalid_of_check` turns a computation into `XValid`.
-/

namespace Verif

/-- What may be left of the list when a step has been taken any number of times, up to a bound. -/
def restsMany (f : List Xml → List (List Xml)) : Nat → List Xml → List (List Xml)
  | 0, l => [l]
  | n + 1, l => l :: (f l).flatMap (restsMany f n)

/-- What may be left of the list when elements that match the content have been taken from its front. -/
def Content.rests (v : Int) (ok : XPlace → Xml → Bool) : Content → List Xml → List (List Xml)
  | .empty, l => [l]
  | .el _ _, [] => []
  | .el n p, x :: l => if x.isElem n && ok p x then [l] else []
  | .seq a b, l => (a.rests v ok l).flatMap (b.rests v ok)
  | .choice a b, l => a.rests v ok l ++ b.rests v ok l
  | .opt a, l => l :: a.rests v ok l
  | .many a, l => restsMany (a.rests v ok) l.length l
  | .some a, l => (a.rests v ok l).flatMap fun l' => restsMany (a.rests v ok) l'.length l'
  | .switch w a b, l => if v < w then a.rests v ok l else b.rests v ok l

theorem restsMany_sound {v : Int} {ok : XPlace → Xml → Prop} {a : Content} {f : List Xml → List (List Xml)}
    (h : ∀ l r, r ∈ f l → ∃ m, l = m ++ r ∧ a.Matches v ok m) : ∀ n l r, r ∈ restsMany f n l →
      ∃ m, l = m ++ r ∧ (Content.many a).Matches v ok m
  | 0, l, r, hr => by
    simp only [restsMany, List.mem_singleton] at hr
    subst hr
    exact ⟨[], rfl, .manyNil⟩
  | n + 1, l, r, hr => by
    simp only [restsMany, List.mem_cons, List.mem_flatMap] at hr
    rcases hr with rfl | ⟨l', hl, hr⟩
    · exact ⟨[], rfl, .manyNil⟩
    · obtain ⟨m, rfl, hm⟩ := h l l' hl
      obtain ⟨m', rfl, hm'⟩ := restsMany_sound h n l' r hr
      exact ⟨m ++ m', by simp, .manyCons hm hm'⟩

theorem rests_sound {v : Int} {okB : XPlace → Xml → Bool} {ok : XPlace → Xml → Prop}
    (ho : ∀ p x, okB p x = true → ok p x) : ∀ (a : Content) (l r : List Xml), r ∈ a.rests v okB l →
      ∃ m, l = m ++ r ∧ a.Matches v ok m
  | .empty, l, r, hr => by
    simp only [Content.rests, List.mem_singleton] at hr
    subst hr
    exact ⟨[], rfl, .empty⟩
  | .el n p, [], r, hr => by simp [Content.rests] at hr
  | .el n p, x :: l, r, hr => by
    simp only [Content.rests] at hr
    split at hr
    · rename_i h
      simp only [Bool.and_eq_true] at h
      simp only [List.mem_singleton] at hr
      subst hr
      exact ⟨[x], rfl, .el h.1 (ho _ _ h.2)⟩
    · cases hr
  | .seq a b, l, r, hr => by
    simp only [Content.rests, List.mem_flatMap] at hr
    obtain ⟨l', hl, hr⟩ := hr
    obtain ⟨m, rfl, hm⟩ := rests_sound ho a l l' hl
    obtain ⟨m', rfl, hm'⟩ := rests_sound ho b l' r hr
    exact ⟨m ++ m', by simp, .seq hm hm'⟩
  | .choice a b, l, r, hr => by
    simp only [Content.rests, List.mem_append] at hr
    rcases hr with hr | hr
    · obtain ⟨m, e, hm⟩ := rests_sound ho a l r hr; exact ⟨m, e, .left hm⟩
    · obtain ⟨m, e, hm⟩ := rests_sound ho b l r hr; exact ⟨m, e, .right hm⟩
  | .opt a, l, r, hr => by
    simp only [Content.rests, List.mem_cons] at hr
    rcases hr with rfl | hr
    · exact ⟨[], rfl, .optNone⟩
    · obtain ⟨m, e, hm⟩ := rests_sound ho a l r hr; exact ⟨m, e, .optSome hm⟩
  | .many a, l, r, hr => restsMany_sound (rests_sound ho a) _ _ _ hr
  | .some a, l, r, hr => by
    simp only [Content.rests, List.mem_flatMap] at hr
    obtain ⟨l', hl, hr⟩ := hr
    obtain ⟨m, rfl, hm⟩ := rests_sound ho a l l' hl
    obtain ⟨m', rfl, hm'⟩ := restsMany_sound (rests_sound ho a) _ _ _ hr
    exact ⟨m ++ m', by simp, .some hm hm'⟩
  | .switch w a b, l, r, hr => by
    simp only [Content.rests] at hr
    split at hr
    · rename_i h
      obtain ⟨m, e, hm⟩ := rests_sound ho a l r hr; exact ⟨m, e, .old h hm⟩
    · rename_i h
      obtain ⟨m, e, hm⟩ := rests_sound ho b l r hr; exact ⟨m, e, .new (by omega) hm⟩

instance (d : XAttr) (v : Int) : Decidable (d.In v) :=
  match h : d.since with
  | none => isTrue fun w hw => by rw [h] at hw; cases hw
  | some w =>
    if hw : w ≤ v then isTrue fun w' hw' => by rw [h] at hw'; cases hw'; exact hw
    else isFalse fun hi => hw (hi w h)

/-- A computation of `XValid`, for elements nested at most as deep as the first argument says. -/
def xvalidCheck (v : Int) : Nat → XPlace → Xml → Bool
  | 0, _, _ => false
  | _ + 1, _, .text _ => false
  | n + 1, p, .elem _ as ks =>
    (as.all fun a => p.attrs.any fun d => decide (d.name = a.1 ∧ d.In v)) &&
    (p.attrs.all fun d => !d.required || !decide (d.In v) || as.any fun a => decide (a.1 = d.name)) &&
    (p.mixed || ks.all fun
      | .text s => s.toList.all fun c => decide (c = ' ' ∨ c = '\t' ∨ c = '\n' ∨ c = '\r')
      | _ => true) &&
    (p.content.rests v (xvalidCheck v n) (Xml.elements ks)).any fun r => r.isEmpty

theorem xvalid_of_check {v : Int} : ∀ (n : Nat) (p : XPlace) (x : Xml), xvalidCheck v n p x = true → XValid v p x
  | 0, _, _, h => by simp [xvalidCheck] at h
  | _ + 1, _, .text _, h => by simp [xvalidCheck] at h
  | n + 1, p, .elem name as ks, h => by
    simp only [xvalidCheck, Bool.and_eq_true, List.all_eq_true, List.any_eq_true, decide_eq_true_eq, Bool.or_eq_true,
      Bool.not_eq_true', decide_eq_false_iff_not, List.isEmpty_iff] at h
    obtain ⟨⟨⟨h₁, h₂⟩, h₃⟩, r, hr, rfl⟩ := h
    obtain ⟨m, e, hm⟩ := rests_sound (xvalid_of_check n) _ _ _ hr
    rw [List.append_nil] at e
    refine .mk ⟨h₁, fun d hd hq hv => ?_⟩ ?_ (e ▸ hm)
    · rcases h₂ d hd with (h | h) | h
      · rw [hq] at h; cases h
      · exact absurd hv h
      · exact h
    · rcases h₃ with h | h
      · exact .inl h
      · exact .inr fun s hs => by simpa using h _ hs

end Verif
