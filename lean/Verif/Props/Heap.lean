import Verif.Proofs.Heap
import Verif.Proofs.Trees

/-!
# C28: EncodeVersion does not modify the caller's BOM

`EncodeVersion` copies the BOM and then converts and encodes the copy.  What is proved is independent of what
conversion and encoding do: *no* program that starts with the pointer to the copy can change a variable that
existed before, at any step of its execution, whether it ends, panics or runs for ever.
-/

namespace Verif.Props
open Verif.Heap

mutual
/-- What one sees through a pointer is unique. -/
theorem reads_unique {h : Heap} : ∀ {v : Val} {t u : Tree}, Reads h v t → Reads h v u → t = u
  | _, _, _, .scalar _, .scalar _ => rfl
  | _, _, _, .nilPtr, .nilPtr => rfl
  | _, _, _, .ptr hl hr, .ptr hl' hr' => by
    rw [hl] at hl'; cases hl'
    rw [reads_unique hr hr']
  | _, _, _, .nilSlice, .nilSlice => rfl
  | _, _, _, .slice ha _ hr, .slice ha' _ hr' => by
    rw [ha] at ha'; cases ha'
    rw [readsAll_unique hr hr']
  | _, _, _, .agg hr, .agg hr' => by rw [readsAll_unique hr hr']
/-- What one sees through pointers is unique. -/
theorem readsAll_unique {h : Heap} : ∀ {vs : List Val} {ts us : List Tree}, ReadsAll h vs ts →
    ReadsAll h vs us → ts = us
  | _, _, _, .nil, .nil => rfl
  | _, _, _, .cons hv hvs, .cons hv' hvs' => by rw [reads_unique hv hv', readsAll_unique hvs hvs']
end

/-- **C28.** Let `bom` point to a BOM `b` in the caller's heap, with whatever sharing.  After the deep copy
(copy.go), at every step of whatever runs then with the pointer to the copy: every variable of the caller, and
every part of it, holds what it held, and the caller still sees `b` through the pointer — and through every
other pointer what they saw before. -/
theorem encodeVersion_leaves_caller (b : BOM) (h : Heap) (bom : Loc) (receiver : Val)
    (hload : load h bom = some receiver) (hb : Reads h receiver b.tree)
    (P : Nat → List Cmd) (c : List Cmd) (opts : List Scalar) (s : State)
    (hs : Steps P (start c (copyOf b.tree receiver h).1 (copyOf b.tree receiver h).2 opts) s) :
    (∀ l v, load h l = some v → load s.heap l = some v) ∧
    (∀ v t, Reads h v t → Reads s.heap v t) ∧
    Reads s.heap (.ptr bom) (.ptr b.tree) := by
  have hc := steps_confined (copyOf_confined b.tree receiver h c opts) hs
  have hheap : s.heap = h ++ ([receiver] ++ s.heap.drop (h ++ [receiver]).length) := by
    conv => lhs; rw [← List.take_append_drop (h ++ [receiver]).length s.heap, hc.same]
    rw [List.append_assoc]
  refine ⟨fun l v hv => ?_, fun v t hv => ?_, ?_⟩
  · rw [hheap]; exact load_extends hv
  · rw [hheap]; exact hv.extends _
  · rw [hheap]; exact (Reads.ptr hload hb).extends _

/-- The conversion starts from the copy that `Verif.Model.Gob` describes. -/
theorem encodeVersion_starts_from_copy (b : BOM) (h : Heap) (receiver : Val) :
    Reads (copyOf b.tree receiver h).1 (copyOf b.tree receiver h).2 (.ptr b.copy.tree) := by
  rw [BOM.tree_gob]
  exact copyOf_reads b.tree receiver h

/-- Nothing the copy reaches is shared with the caller: through the pointer to the copy one sees the copy even
if all variables of the caller change. -/
theorem copy_shares_nothing (b : BOM) (h h' : Heap) (receiver : Val) (hl : h'.length = h.length + 1) :
    Reads (h' ++ (copyOf b.tree receiver h).1.drop (h.length + 1)) (copyOf b.tree receiver h).2
      (.ptr b.copy.tree) := by
  have hr := encodeVersion_starts_from_copy b h receiver
  have hc := copyOf_confined b.tree receiver h [] []
  have hlen : (h ++ [receiver]).length = h.length + 1 := by simp
  have hcell := hc.cells
  have hroot : (copyOf b.tree receiver h).2.Above (h.length + 1) := by
    have := hc.locals _ (.head _) 0
    simpa [hlen] using this
  rw [hlen] at hcell
  simp only [start] at hcell
  generalize (copyOf b.tree receiver h).1 = H at *
  have get : ∀ i, h.length + 1 ≤ i → (h' ++ H.drop (h.length + 1))[i]? = H[i]? := by
    intro i hi
    rw [List.getElem?_append_right (by omega), List.getElem?_drop]
    congr 1
    omega
  have key : ∀ {v t}, Reads H v t → v.Above (h.length + 1) → Reads (h' ++ H.drop (h.length + 1)) v t := by
    intro v t hv
    refine Reads.rec (motive_1 := fun v t _ => v.Above (h.length + 1) → Reads (h' ++ H.drop (h.length + 1)) v t)
      (motive_2 := fun vs ts _ => AllAbove (h.length + 1) vs → ReadsAll (h' ++ H.drop (h.length + 1)) vs ts)
      ?_ ?_ ?_ ?_ ?_ ?_ ?_ ?_ hv
    · intro s _; exact .scalar s
    · intro _; exact .nilPtr
    · intro l v t hl _ ih ha
      refine .ptr ?_ (ih (load_above hcell ha hl))
      unfold load at hl ⊢
      rw [get _ ha]; exact hl
    · intro _; exact .nilSlice
    · intro a n vs ts hcella hn _ ih ha
      refine .slice (by rw [get _ ha]; exact hcella) hn (ih ?_)
      have := allAbove_iff.1 (hcell _ _ ha hcella)
      exact allAbove_iff.2 fun v hv => this v (List.mem_of_mem_take hv)
    · intro vs ts _ ih ha; exact .agg (ih ha)
    · intro _; exact .nil
    · intro v vs t ts _ _ ih1 ih2 ha; exact .cons (ih1 ha.1) (ih2 ha.2)
  exact key hr hroot

/-! ## The claim is not empty

A BOM whose document and metadata share one list of properties, and a program that goes through the pointer it
is given and renames the first property.  Given the copy it leaves the caller's BOM alone, but given a shallow
copy (`c := *bom`) it does not. -/

/-- The properties in the example. -/
def sharedProps : PSlice Property := .list [⟨"a", "b"⟩]

/-- The BOM of the example. -/
def sharedBOM : BOM := { metadata := some { properties := sharedProps }, properties := sharedProps }

/-- The variables: 0 the array of properties, 1 the slice, 2 the metadata, 3 the BOM. -/
def sharedHeap : Heap :=
  [.agg [.agg [.scalar (.str "a"), .scalar (.str "b")]],
   .slice 0 1,
   .agg [.scalar (.str ""), .nilPtr, .nilPtr, .nilPtr, .nilPtr, .nilPtr, .nilPtr, .nilPtr, .nilPtr, .ptr ⟨1, []⟩, .nilPtr],
   .agg [.agg [.scalar (.str ""), .scalar (.str "")], .scalar (.str ""), .scalar (.str ""), .scalar (.str ""),
     .scalar (.int 0), .scalar (.str ""), .scalar (.int 0), .ptr ⟨2, []⟩, .nilPtr, .nilPtr, .nilPtr, .nilPtr, .nilPtr,
     .ptr ⟨1, []⟩, .nilPtr, .nilPtr, .nilPtr, .nilPtr, .nilPtr, .nilPtr, .nilPtr]]

/-- The value of the caller's variable. -/
def sharedReceiver : Val := (load sharedHeap ⟨3, []⟩).getD .nilPtr

/-- `(*(*bom).Properties)[0].Name = "x"` -/
def rename : List Cmd :=
  [.field 1 0 13, .load 2 1, .load 3 2, .const 4 (.int 0), .elem 5 3 4, .field 6 5 0, .const 7 (.str "x"),
   .store 6 7]

theorem shared_reads : Reads sharedHeap sharedReceiver sharedBOM.tree := by
  unfold sharedReceiver sharedHeap sharedBOM sharedProps
  have hp : Reads sharedHeap (.ptr ⟨1, []⟩) (.ptr (.slice [.agg [.scalar (.str "a"), .scalar (.str "b")]])) :=
    .ptr rfl (.slice (vs := [.agg [.scalar (.str "a"), .scalar (.str "b")]]) rfl (by decide)
      (.cons (.agg (.cons (.scalar _) (.cons (.scalar _) .nil))) .nil))
  have hm : Reads sharedHeap (.ptr ⟨2, []⟩) (.ptr (Metadata.tree { properties := sharedProps })) :=
    .ptr rfl (.agg (.cons (.scalar _) (.cons .nilPtr (.cons .nilPtr (.cons .nilPtr (.cons .nilPtr (.cons .nilPtr
      (.cons .nilPtr (.cons .nilPtr (.cons .nilPtr (.cons hp (.cons .nilPtr .nil))))))))))))
  exact .agg (.cons (.agg (.cons (.scalar _) (.cons (.scalar _) .nil))) (.cons (.scalar _) (.cons (.scalar _)
    (.cons (.scalar _) (.cons (.scalar _) (.cons (.scalar _) (.cons (.scalar _) (.cons hm (.cons .nilPtr
    (.cons .nilPtr (.cons .nilPtr (.cons .nilPtr (.cons .nilPtr (.cons hp (.cons .nilPtr (.cons .nilPtr
    (.cons .nilPtr (.cons .nilPtr (.cons .nilPtr (.cons .nilPtr (.cons .nilPtr .nil)))))))))))))))))))))

/-- The hypotheses of `encodeVersion_leaves_caller` are met. -/
example : load sharedHeap ⟨3, []⟩ = some sharedReceiver ∧ Reads sharedHeap sharedReceiver sharedBOM.tree :=
  ⟨rfl, shared_reads⟩

/-- `n` steps. -/
def runSteps (P : Nat → List Cmd) : Nat → State → Option State
  | 0, s => some s
  | n + 1, s => (step P s).bind (runSteps P n)

theorem steps_trans {P : Nat → List Cmd} {s t u : State} (h : Steps P s t) (h' : Steps P t u) : Steps P s u := by
  induction h' with
  | refl => exact h
  | tail _ hs ih => exact .tail ih hs

theorem runSteps_steps {P : Nat → List Cmd} : ∀ {n : Nat} {s t : State}, runSteps P n s = some t → Steps P s t
  | 0, s, t, h => by cases h; exact .refl _
  | n + 1, s, t, h => by
    rw [runSteps, Option.bind_eq_some_iff] at h
    obtain ⟨u, hu, h⟩ := h
    exact steps_trans (.tail (.refl _) hu) (runSteps_steps h)

/-- On the copy the program runs to its end, and changes the copy. -/
example : ∃ s, Steps (fun _ => []) (start rename (copyOf sharedBOM.tree sharedReceiver sharedHeap).1
      (copyOf sharedBOM.tree sharedReceiver sharedHeap).2 []) s ∧ s.acts.map Act.todo = [[]] ∧
      s.heap[8]?.bind (·.get [0, 0]) = some (.scalar (.str "x")) :=
  ⟨_, runSteps_steps (n := 8) rfl, rfl, rfl⟩

/-- With a shallow copy the same program changes what the caller sees. -/
theorem shallow_copy_interferes : ∃ s t, Steps (fun _ => [])
      (start rename (sharedHeap ++ [sharedReceiver]) (.ptr ⟨4, []⟩) []) s ∧
    Reads sharedHeap (.ptr ⟨3, []⟩) (.ptr sharedBOM.tree) ∧
    Reads s.heap (.ptr ⟨0, [0, 0]⟩) t ∧ ¬ Reads sharedHeap (.ptr ⟨0, [0, 0]⟩) t := by
  refine ⟨_, .ptr (.scalar (.str "x")), runSteps_steps (n := 8) rfl, .ptr rfl shared_reads, .ptr rfl (.scalar _), ?_⟩
  intro h
  have := reads_unique h (.ptr (v := .scalar (.str "a")) rfl (.scalar _))
  simp at this

end Verif.Props
