import Verif.Json.SaysLaws
import Verif.Json.Document
import Verif.Props.Recompleted

/-! # C93: a document that is read and written again says nothing new -/

namespace Verif.Props

set_option linter.unusedSectionVars false

variable [FloatIO]

/-- C93: every string and every boolean in what `Encode` writes of what `Decode` has read from a document is in that
document, below members of the same names, unless it is empty or `false`. -/
theorem reencode_says (j j' : Json) (b : BOM) (hd : decodeJSON j {} = some b) (he : encodeJSON b = .ok j')
    (p : List String) (w : Word) (h : j'.Says p w) : j.Says p w ∨ w.Blank := by
  obtain ⟨I, hz, ho, hs⟩ := say_bomWith J.someVersion (j.depth + 1) (say_someVersion _)
    (fun p w => j.Says p w ∨ w.Blank) (fun _ _ => .inr)
  unfold decodeJSON at hd
  split at hd
  · have hi := hs j {} b (Nat.lt_succ_self _) (fun _ _ => .inl) hz (by rw [someVersion_dec]; exact hd)
    unfold encodeJSON at he
    split at he
    · cases he
    · rename_i hv
      split at he
      · cases he
      · rename_i i hi'
        cases he
        refine ho b hi j' ?_ p w h
        rw [someVersion_enc b (by simp only [SpecVersion1_2] at hv; omega)]
        exact hi'
  · cases hd

/-- C93, from a document read into a BOM that was written before: what is written then is in one of the two. -/
theorem reencode_says_over (j₀ j₁ j' : Json) (b₀ b : BOM) (h₀ : decodeJSON j₀ {} = some b₀) (hd : decodeJSON j₁ b₀ = some b)
    (he : encodeJSON b = .ok j') (p : List String) (w : Word) (h : j'.Says p w) :
    j₀.Says p w ∨ j₁.Says p w ∨ w.Blank := by
  obtain ⟨I, hz, ho, hs⟩ := say_bomWith J.someVersion (max j₀.depth j₁.depth + 1) (say_someVersion _)
    (fun p w => j₀.Says p w ∨ j₁.Says p w ∨ w.Blank) (fun _ _ h => .inr (.inr h))
  unfold decodeJSON at hd h₀
  split at hd <;> split at h₀
  · have hi₀ := hs j₀ {} b₀ (by omega) (fun _ _ => .inl) hz (by rw [someVersion_dec]; exact h₀)
    have hi := hs j₁ b₀ b (by omega) (fun _ _ h => .inr (.inl h)) hi₀ (by rw [someVersion_dec]; exact hd)
    unfold encodeJSON at he
    split at he
    · cases he
    · rename_i hv
      split at he
      · cases he
      · rename_i i hi'
        cases he
        refine ho b hi j' ?_ p w h
        rw [someVersion_enc b (by simp only [SpecVersion1_2] at hv; omega)]
        exact hi'
  all_goals contradiction

/-- So whatever a schema demands of the strings of a member — a pattern, a length — and empty strings meet, what is
written meets if what was read did. -/
theorem reencode_facets (D : List String → String → Prop) (h0 : ∀ p, D p "") (j j' : Json) (b : BOM)
    (h : ∀ p s, j.Says p (.str s) → D p s) (hd : decodeJSON j {} = some b) (he : encodeJSON b = .ok j') :
    ∀ p s, j'.Says p (.str s) → D p s := by
  intro p s hs
  rcases reencode_says j j' b hd he p _ hs with hs | hs
  · exact h p s hs
  · cases hs; exact h0 p

/-! ## A document that is read and written -/

/-- A component of an unknown type, in odd case, with a name, a member that no version knows, and a component in it. -/
def saidDocument : Json :=
  .obj (documentStart "1.5" ++ [
    ("Components", .arr [.obj [("type", .str "t"), ("NAME", .str "c"), ("modified", .bool true), ("odd", .str "x"),
      ("components", .arr [.obj [("name", .str "d")]])]])])

/-- What is read from it … -/
def saidBOM : BOM :=
  { bomFormat := "CycloneDX", specVersion := 6, version := 1,
    components := .list [{ type := "t", name := "c", modified := some true, components := .list [{ name := "d" }] }] }

/-- … and what is written of that. -/
def saidAgain : Json :=
  .obj (documentStart "1.5" ++ [
    ("components", .arr [.obj [("type", .str "t"), ("name", .str "c"), ("modified", .bool true),
      ("components", .arr [.obj [("type", .str ""), ("name", .str "d")]])]])])

theorem saidDocument_read : decodeJSON saidDocument {} = some saidBOM := rfl
theorem saidBOM_written : encodeJSON saidBOM = .ok saidAgain := rfl

example : saidAgain.Says ["components", "components", "name"] (.str "d") ∧
    (∀ p w, saidAgain.Says p w → saidDocument.Says p w ∨ w.Blank) ∧
    saidDocument.Says ["components", "odd"] (.str "x") ∧ ¬ ∃ p, saidAgain.Says p (.str "x") := by
  refine ⟨?_, reencode_says _ _ _ saidDocument_read saidBOM_written, ?_, ?_⟩
  · refine .member (.tail _ <| .tail _ <| .tail _ <| .head _) (by decide +kernel) (.elem (.head _) ?_)
    refine .member (.tail _ <| .tail _ <| .tail _ <| .head _) (by decide +kernel) (.elem (.head _) ?_)
    exact .member (.tail _ <| .head _) (by decide +kernel) (.str _)
  · refine .member (.tail _ <| .tail _ <| .tail _ <| .head _) (by decide +kernel) (.elem (.head _) ?_)
    exact .member (.tail _ <| .tail _ <| .tail _ <| .head _) (by decide +kernel) (.str _)
  · rintro ⟨p, h⟩
    have : All (fun _ w => w ≠ .str "x") saidAgain := by
      simp only [saidAgain, documentStart, all_obj, all_arr, all_str, all_bool, all_num, Words.below, List.mem_cons,
        List.cons_append, List.nil_append, List.not_mem_nil, or_false, forall_eq_or_imp, forall_eq]
      simp
    exact this p _ h rfl

end Verif.Props
