import Verif.Proofs.GoBOM
import Verif.Proofs.BuildOwn
import Verif.Proofs.TreeInj
import Verif.Props.Heap

/-!
# C61: the conversion as it is written

The other properties of conversion are about `Verif.convert`, a function on values.  `/repo/convert.go` is written
differently: it assigns through pointers.  `Verif.Heap.Go.convert` is convert.go statement by statement, on the memory of
`Model/Heap`.  Here the two are related.
-/

namespace Verif.Props
open Verif.Heap

/-- A BOM is determined by what is seen of it. -/
theorem bom_tree_injective {a b : BOM} (h : a.tree = b.tree) : a = b := BOM.tree_inj h

/-- **C61.** Let `receiver` be the value of a BOM variable through which the BOM `b` is seen, in whatever heap and with
whatever sharing.  With enough steps for the recursion, copying and converting as written in copy.go and convert.go ends
without a panic; the pointer it returns leads to exactly one BOM, the one that the value-level model computes, and every
variable that existed before holds what it held. -/
theorem conversion_as_written (b : BOM) (sv : Int) (h : Heap) (receiver : Val) :
    ∃ N, ∀ n, N ≤ n → ∃ h' p, Go.copyAndConvert n sv b.tree receiver h = some (p, h') ∧
      (∀ c : BOM, Reads h' (.ptr p) (.ptr c.tree) ↔ c = convert sv b.copy) ∧
      (∀ l v, load h l = some v → load h' l = some v) ∧
      (∀ v t, Reads h v t → Reads h' v t) := by
  obtain ⟨N, hN⟩ := Go.convert_ev sv b.copy
  refine ⟨N, fun n hn => ?_⟩
  obtain ⟨l, fp, hl, ho, hlt, hfp, k, hk⟩ := copyOf_own b.tree receiver h
  rw [← BOM.tree_gob] at ho
  obtain ⟨h', fp', run, ⟨v, hv, own, -⟩, fr, -⟩ := hN n hn l _ fp ho
  have hread : Reads h' (.ptr l) (.ptr (convert sv b.copy).tree) := .ptr hv own.reads
  have hext : ∃ k', h' = h ++ k' := by
    refine ⟨h'.drop h.length, ?_⟩
    have hlen : h.length ≤ h'.length := by
      have := fr.len
      rw [hk, List.length_append] at this
      omega
    conv => lhs; rw [← List.take_append_drop h.length h']
    congr 1
    refine List.ext_getElem? fun i => ?_
    by_cases hi : i < h.length
    · rw [List.getElem?_take_of_lt hi, fr.same i (by rw [hk, List.length_append]; omega) (by omega)
        (fun hc => by have := hfp i hc; omega), hk, List.getElem?_append_left hi]
    · rw [List.getElem?_eq_none (by rw [List.length_take]; omega), List.getElem?_eq_none (by omega)]
  obtain ⟨k', rfl⟩ := hext
  refine ⟨h ++ k', l, ?_, fun c => ⟨fun hc => ?_, ?_⟩, fun l v hv => load_extends hv, fun v t hv => hv.extends _⟩
  · have e : copyOf b.tree receiver h = ((copyOf b.tree receiver h).1, .ptr l) := by rw [← hl]
    unfold Go.copyAndConvert
    rw [e]
    show (Go.convert n sv l >>= fun _ => pure l) _ = _
    rw [bind_run run]
    rfl
  · have := reads_unique hc hread
    simp only [Tree.ptr.injEq] at this
    exact bom_tree_injective this
  · rintro rfl; exact hread

/-- The result does not depend on the number of steps, once there are enough of them: what is seen is the same. -/
theorem conversion_as_written_stable (b : BOM) (sv : Int) (h : Heap) (receiver : Val) :
    ∃ N, ∀ n m, N ≤ n → N ≤ m → ∀ h₁ p₁ h₂ p₂, Go.copyAndConvert n sv b.tree receiver h = some (p₁, h₁) →
      Go.copyAndConvert m sv b.tree receiver h = some (p₂, h₂) →
      ∀ c : BOM, Reads h₁ (.ptr p₁) (.ptr c.tree) ↔ Reads h₂ (.ptr p₂) (.ptr c.tree) := by
  obtain ⟨N, hN⟩ := conversion_as_written b sv h receiver
  refine ⟨N, fun n m hn hm h₁ p₁ h₂ p₂ e₁ e₂ c => ?_⟩
  obtain ⟨_, _, r₁, i₁, -⟩ := hN n hn
  obtain ⟨_, _, r₂, i₂, -⟩ := hN m hm
  rw [e₁] at r₁
  rw [e₂] at r₂
  cases r₁
  cases r₂
  rw [i₁, i₂]

/-- **C61, without the copy.** `convert` itself, on a BOM variable that shares nothing, turns it into the BOM of the
value-level model and touches no variable the BOM does not own. -/
theorem convert_in_place (b : BOM) (sv : Int) (h : Heap) (l : Loc) (fp : List Nat) (ho : OwnAt h l b.tree fp) :
    ∃ N, ∀ n, N ≤ n → ∃ h', Go.convert n sv l h = some ((), h') ∧
      (∀ c : BOM, Reads h' (.ptr l) (.ptr c.tree) ↔ c = convert sv b) ∧
      ∀ i, i < h.length → i ≠ l.cell → i ∉ fp → h'[i]? = h[i]? := by
  obtain ⟨N, hN⟩ := Go.convert_ev sv b
  refine ⟨N, fun n hn => ?_⟩
  obtain ⟨h', fp', run, ⟨v, hv, own, -⟩, fr, -⟩ := hN n hn l _ fp ho
  refine ⟨h', run, fun c => ⟨fun hc => ?_, ?_⟩, fr.same⟩
  · have := reads_unique hc (.ptr hv own.reads)
    simp only [Tree.ptr.injEq] at this
    exact bom_tree_injective this
  · rintro rfl; exact .ptr hv own.reads

/-! ## The claims are not empty -/

/-- The BOM of C28, in which two variables point to the same list, converted: the metadata loses its properties below
1.3. -/
example : ∃ N, ∀ n, N ≤ n → ∃ h' p,
    Go.copyAndConvert n SpecVersion1_2 sharedBOM.tree sharedReceiver sharedHeap = some (p, h') ∧
    Reads h' (.ptr p) (.ptr (convert SpecVersion1_2 sharedBOM.copy).tree) ∧
    Reads h' (.ptr ⟨3, []⟩) (.ptr sharedBOM.tree) := by
  obtain ⟨N, h⟩ := conversion_as_written sharedBOM SpecVersion1_2 sharedHeap sharedReceiver
  refine ⟨N, fun n hn => ?_⟩
  obtain ⟨h', p, r, i, -, k⟩ := h n hn
  exact ⟨h', p, r, (i _).2 rfl, k _ _ (.ptr rfl shared_reads)⟩

/-- The program can be run. -/
example : (Go.copyAndConvert 1 SpecVersion1_2 sharedBOM.tree sharedReceiver sharedHeap).map Prod.fst =
    some ⟨10, []⟩ := by rfl

/-- Without steps for the recursion the program does not get through a component. -/
example : Go.recurseComponent (Go.componentConverter SpecVersion1_2) 0 ⟨0, []⟩ [] = none := rfl

/-- The components of an acyclic BOM can be nested as deeply as one likes, the bound `N` depends on the BOM. -/
def nested : Nat → Component
  | 0 => { name := "leaf" }
  | n + 1 => { name := "node", components := .list [nested n] }

example (k : Nat) : ∃ N, ∀ n, N ≤ n → ∃ h' p,
    Go.copyAndConvert n SpecVersion1_0 ({ components := .list [nested k] } : BOM).tree .nilPtr [] = some (p, h') := by
  obtain ⟨N, h⟩ := conversion_as_written { components := .list [nested k] } SpecVersion1_0 [] .nilPtr
  exact ⟨N, fun n hn => by obtain ⟨h', p, r, -⟩ := h n hn; exact ⟨h', p, r⟩⟩

end Verif.Props
