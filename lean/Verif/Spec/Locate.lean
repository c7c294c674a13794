import Verif.Spec.Schema
import Verif.Model.Types

/-!
# Places in a document

A small specification vocabulary, independent of the code: a place is the sequence of steps from the top of
the document to a component, so that the "same" component can be compared before and after a conversion.
-/

namespace Verif.Spec

/-- One step from a component to one of the components it contains. -/
inductive Step where
  | child (i : Nat)
  | ancestor (i : Nat)
  | descendant (i : Nat)
  | variant (i : Nat)
  deriving DecidableEq, Repr

/-- The component reached by a step. -/
def step (c : Component) : Step → Option Component
  | .child i => c.components.elems[i]?
  | .ancestor i => c.pedigree.bind fun p => p.ancestors.elems[i]?
  | .descendant i => c.pedigree.bind fun p => p.descendants.elems[i]?
  | .variant i => c.pedigree.bind fun p => p.variants.elems[i]?

/-- The component reached by a sequence of steps. -/
def walk (c : Component) : List Step → Option Component
  | [] => some c
  | s :: ss => (step c s).bind fun d => walk d ss

/-- Where a component of a document is: below the metadata component or below the `i`-th component. -/
inductive Place where
  | metadata (steps : List Step)
  | top (i : Nat) (steps : List Step)
  deriving Repr

/-- The component at a place. -/
def componentAt (b : BOM) : Place → Option Component
  | .metadata ss => (b.metadata.bind fun m => m.component).bind fun c => walk c ss
  | .top i ss => b.components.elems[i]?.bind fun c => walk c ss

/-- The service reached by a sequence of indices. -/
def walkService (s : Service) : List Nat → Option Service
  | [] => some s
  | i :: is => s.services.elems[i]?.bind fun t => walkService t is

/-- The service at a place, given by the indices to follow. -/
def serviceAt (b : BOM) : List Nat → Option Service
  | [] => none
  | i :: is => b.services.elems[i]?.bind fun s => walkService s is

end Verif.Spec
