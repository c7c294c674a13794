"""Generates lean/Verif/Model/Recurse.lean (the recursion over component and service trees)."""
import sys
sys.path.insert(0, "/verif/tools")
from gostructs import structs
def pat(s, ren):
    return " ".join(ren.get(f.name, f.name) for f in structs[s].fields)
def wrap(txt, ind):
    out, line = [], ""
    for wd in txt.split(" "):
        if len(line) + len(wd) + ind > 96 and wd:
            out.append(line); line = wd
        else: line = (line + " " + wd) if line else wd
    out.append(line)
    return ("\n" + " " * ind).join(out)
comp = [f.name for f in structs["Component"].fields]
srv = [f.name for f in structs["Service"].fields]
P = wrap(" ".join(comp), 10)
R = wrap(" ".join({"components": "(recurseComponents f components)", "pedigree": "(recursePedigreeOpt f pedigree)"}.get(x, x) for x in comp), 10)
SP = wrap(" ".join(srv), 10)
SR = wrap(" ".join({"services": "(recurseServices f services)"}.get(x, x) for x in srv), 10)
open("/verif/lean/Verif/Model/Recurse.lean", "w").write(f"""import Verif.Model.Types

/-!
# The recursion over component and service trees

GENERATED by `tools/gen_recurse.py`; do not edit by hand.

Models `recurseComponent` (convert.go:704-733) and `recurseService` (convert.go:735-747).  Go calls `f`
on the component and then recurses into the children of the *modified* component; the definitions below
recurse into the children first and then apply `f`, which makes them structurally recursive.  For the
functions the library passes (`componentConverter`, `serviceConverter`) the two orders agree:
`Verif.Props.recurseComponent_go` and `Verif.Props.recurseService_go` state Go's equation.
-/

namespace Verif

mutual
/-- convert.go:704-733 -/
def recurseComponent (f : Component → Component) : Component → Component
  | .mk {P} =>
    f (.mk {R})
/-- convert.go:711-715, 717-731: the loops over a list of components. -/
def recurseComponents (f : Component → Component) : PSlice Component → PSlice Component
  | .nil => .nil
  | .nilSlice => .nilSlice
  | .list xs => .list (recurseComponentList f xs)
/-- The body of those loops. -/
def recurseComponentList (f : Component → Component) : List Component → List Component
  | [] => []
  | c :: cs => recurseComponent f c :: recurseComponentList f cs
/-- convert.go:716 -/
def recursePedigreeOpt (f : Component → Component) :
    Option (Pedigree Component) → Option (Pedigree Component)
  | none => none
  | some p => some (recursePedigree f p)
/-- convert.go:717-731 -/
def recursePedigree (f : Component → Component) : Pedigree Component → Pedigree Component
  | .mk ancestors descendants variants commits patches notes =>
    .mk (recurseComponents f ancestors) (recurseComponents f descendants) (recurseComponents f variants)
      commits patches notes
end

mutual
/-- convert.go:735-747 -/
def recurseService (f : Service → Service) : Service → Service
  | .mk {SP} =>
    f (.mk {SR})
/-- convert.go:742-746 -/
def recurseServices (f : Service → Service) : PSlice Service → PSlice Service
  | .nil => .nil
  | .nilSlice => .nilSlice
  | .list xs => .list (recurseServiceList f xs)
/-- The body of that loop. -/
def recurseServiceList (f : Service → Service) : List Service → List Service
  | [] => []
  | s :: ss => recurseService f s :: recurseServiceList f ss
end

/-- Applies `f` to the component lists of a pedigree. -/
def Pedigree.mapComponents {{C D : Type}} (f : C → D) (p : Pedigree C) : Pedigree D :=
  {{ ancestors := p.ancestors.map f, descendants := p.descendants.map f, variants := p.variants.map f,
    commits := p.commits, patches := p.patches, notes := p.notes }}

/-- Applies `f` to every direct child: nested components and pedigree relatives. -/
def Component.mapChildren (f : Component → Component) (c : Component) : Component :=
  {{ c with components := c.components.map f, pedigree := c.pedigree.map (Pedigree.mapComponents f) }}

/-- Applies `f` to every nested service. -/
def Service.mapChildren (f : Service → Service) (s : Service) : Service :=
  {{ s with services := s.services.map f }}

theorem recurseComponentList_eq (f : Component → Component) (xs : List Component) :
    recurseComponentList f xs = xs.map (recurseComponent f) := by
  induction xs with
  | nil => rfl
  | cons c cs ih => rw [recurseComponentList, ih, List.map_cons]

theorem recurseComponents_eq (f : Component → Component) (p : PSlice Component) :
    recurseComponents f p = p.map (recurseComponent f) := by
  cases p <;> simp [recurseComponents, PSlice.map, recurseComponentList_eq]

theorem recursePedigreeOpt_eq (f : Component → Component) (p : Option (Pedigree Component)) :
    recursePedigreeOpt f p = p.map (Pedigree.mapComponents (recurseComponent f)) := by
  cases p with
  | none => rfl
  | some p =>
    cases p
    simp [recursePedigreeOpt, recursePedigree, Pedigree.mapComponents, recurseComponents_eq]

theorem recurseComponent_eq (f : Component → Component) (c : Component) :
    recurseComponent f c = f (c.mapChildren (recurseComponent f)) := by
  cases c
  simp only [recurseComponent, Component.mapChildren, recurseComponents_eq, recursePedigreeOpt_eq]

theorem recurseServiceList_eq (f : Service → Service) (xs : List Service) :
    recurseServiceList f xs = xs.map (recurseService f) := by
  induction xs with
  | nil => rfl
  | cons c cs ih => rw [recurseServiceList, ih, List.map_cons]

theorem recurseServices_eq (f : Service → Service) (p : PSlice Service) :
    recurseServices f p = p.map (recurseService f) := by
  cases p <;> simp [recurseServices, PSlice.map, recurseServiceList_eq]

theorem recurseService_eq (f : Service → Service) (s : Service) :
    recurseService f s = f (s.mapChildren (recurseService f)) := by
  cases s
  simp only [recurseService, Service.mapChildren, recurseServices_eq]

/-! ### Children and induction -/

/-- The components of a pedigree. -/
def Pedigree.relatives {{C : Type}} (p : Pedigree C) : List C :=
  p.ancestors.elems ++ p.descendants.elems ++ p.variants.elems

/-- The direct children of a component: nested components and pedigree relatives. -/
def Component.children (c : Component) : List Component :=
  c.components.elems ++ (match c.pedigree with | none => [] | some p => p.relatives)

/-- The direct children of a service. -/
def Service.children (s : Service) : List Service := s.services.elems

theorem PSlice.sizeOf_elem {{α : Type}} [SizeOf α] {{p : PSlice α}} {{a : α}} (h : a ∈ p.elems) :
    sizeOf a < sizeOf p := by
  cases p with
  | nil => cases h
  | nilSlice => cases h
  | list xs =>
    have : sizeOf a < sizeOf xs := List.sizeOf_lt_of_mem h
    simp only [PSlice.list.sizeOf_spec]; omega

theorem Component.sizeOf_child {{c d : Component}} (h : d ∈ c.children) : sizeOf d < sizeOf c := by
  unfold Component.children at h
  rcases List.mem_append.1 h with h | h
  · have := PSlice.sizeOf_elem h
    cases c
    simp only [Component.mk.sizeOf_spec] at *
    omega
  · cases hp : c.pedigree with
    | none => rw [hp] at h; cases h
    | some p =>
      rw [hp] at h
      have hlt : sizeOf d < sizeOf p := by
        simp only [Pedigree.relatives, List.mem_append] at h
        cases p
        simp only [Pedigree.mk.sizeOf_spec] at *
        rcases h with (h | h) | h <;> (have := PSlice.sizeOf_elem h; omega)
      cases c
      simp only at hp
      subst hp
      simp only [Component.mk.sizeOf_spec, Option.some.sizeOf_spec]
      omega

theorem Service.sizeOf_child {{s t : Service}} (h : t ∈ s.children) : sizeOf t < sizeOf s := by
  unfold Service.children at h
  have := PSlice.sizeOf_elem h
  cases s
  simp only [Service.mk.sizeOf_spec] at *
  omega

/-- Induction over component trees. -/
theorem Component.induct {{P : Component → Prop}} (h : ∀ c, (∀ d ∈ c.children, P d) → P c)
    (c : Component) : P c :=
  h c fun d _ => Component.induct h d
termination_by sizeOf c
decreasing_by exact Component.sizeOf_child (by assumption)

/-- Induction over service trees. -/
theorem Service.induct {{P : Service → Prop}} (h : ∀ s, (∀ t ∈ s.children, P t) → P s)
    (s : Service) : P s :=
  h s fun t _ => Service.induct h t
termination_by sizeOf s
decreasing_by exact Service.sizeOf_child (by assumption)

end Verif
""")
