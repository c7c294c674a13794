#!/usr/bin/env python3
"""Generates lean/Verif/Model/Trees.lean (typed values as trees of the memory model) and lean/Verif/Proofs/Trees.lean
(the typed deep copy is the untyped one)."""
import os, sys
sys.path.insert(0, os.path.dirname(__file__))
from gostructs import structs
from gen_types import ORDER
from gen_plain import slice_elem
from gen_gob import kind

SC = {'string': 'Tree.str', 'bool': 'Tree.bool', 'int': 'Tree.int', 'float32': 'Tree.f32', 'float64': 'Tree.f64', 'ref': 'Tree.ref', 'xmlname': 'XMLName.tree'}

def expr(f, v, rec={}):
    t = f.ty
    if f.name in rec: return rec[f.name]
    s = slice_elem(t)
    if s is not None:
        k = kind(s)
        return f'Tree.pslice {s + ".tree" if k == "struct" else SC[k]} {v}'
    if t.startswith('*'):
        k = kind(t[1:])
        return f'Tree.opt {t[1:] + ".tree" if k == "struct" else SC[k]} {v}'
    k = kind(t)
    if k == 'struct': return f'{v}.tree'
    return f'{SC[k]} {v}'

HEAD = '''import Verif.Model.Heap

/-!
# The values of the model as trees of the memory model

GENERATED by `tools/gen_trees.py` from the struct declarations of `/repo/cyclonedx.go`; do not edit by hand.

`T.tree x` forgets the types and the names of the fields.
-/

namespace Verif
open Verif.Heap

/-- Go `string` and the named string types. -/
def Heap.Tree.str (s : String) : Tree := .scalar (.str s)
/-- `BOMReference` -/
def Heap.Tree.ref (s : BOMReference) : Tree := .scalar (.str s.val)
/-- Go `int` and `SpecVersion`. -/
def Heap.Tree.int (i : Int) : Tree := .scalar (.int i)
/-- Go `bool` -/
def Heap.Tree.bool (b : Bool) : Tree := .scalar (.bool b)
/-- Go `float32` -/
def Heap.Tree.f32 (x : F32) : Tree := .scalar (.f32 x)
/-- Go `float64` -/
def Heap.Tree.f64 (x : F64) : Tree := .scalar (.f64 x)
/-- `xml.Name` -/
def XMLName.tree (n : XMLName) : Tree := .agg [.str n.space, .str n.loc]
/-- A pointer. -/
def Heap.Tree.opt {α : Type} (f : α → Tree) : Option α → Tree
  | none => .nilPtr
  | some a => .ptr (f a)
/-- A pointer to a slice. -/
def Heap.Tree.pslice {α : Type} (f : α → Tree) : PSlice α → Tree
  | .nil => .nilPtr
  | .nilSlice => .ptr .nilSlice
  | .list xs => .ptr (.slice (xs.map f))
'''

def model():
    o = [HEAD]; w = o.append
    for n in ORDER:
        s = structs[n]
        if n == 'Pedigree': continue
        if n in ('Component', 'Service'):
            l = n.lower()
            rec = {f.name: f'{l}sTree {f.name}' for f in s.fields if slice_elem(f.ty) == n}
            ped = ''
            if n == 'Component':
                rec['pedigree'] = 'pedigreeOptTree pedigree'
                P = structs['Pedigree']
                prec = {f.name: f'componentsTree {f.name}' for f in P.fields if slice_elem(f.ty) == 'Component'}
                ped = f'''
/-- `*Pedigree` -/
def pedigreeOptTree : Option (Pedigree Component) → Tree
  | none => .nilPtr
  | some p => .ptr (pedigreeTree p)
/-- cyclonedx.go:{P.a}-{P.b} -/
def pedigreeTree : Pedigree Component → Tree
  | .mk {' '.join(f.name for f in P.fields)} =>
    .agg [{', '.join(expr(f, f.name, prec) for f in P.fields)}]'''
            w(f'''mutual
/-- cyclonedx.go:{s.a}-{s.b} -/
def {n}.tree : {n} → Tree
  | .mk {' '.join(f.name for f in s.fields)} =>
    .agg [{', '.join(expr(f, f.name, rec) for f in s.fields)}]
/-- A pointer to a slice of them. -/
def {l}sTree : PSlice {n} → Tree
  | .nil => .nilPtr
  | .nilSlice => .ptr .nilSlice
  | .list xs => .ptr (.slice ({l}ListTree xs))
/-- The elements of a slice of them. -/
def {l}ListTree : List {n} → List Tree
  | [] => []
  | c :: cs => c.tree :: {l}ListTree cs{ped}
end
'''); continue
        w(f'''/-- cyclonedx.go:{s.a}-{s.b} -/
def {n}.tree (x : {n}) : Tree :=
  .agg [{', '.join(expr(f, 'x.' + f.name) for f in s.fields)}]
''')
    w('end Verif')
    return '\n'.join(o) + '\n'

PHEAD = '''import Verif.Model.Trees

/-!
# The typed deep copy is the untyped one

GENERATED by `tools/gen_trees.py`; do not edit by hand.

`(T.copy x).tree = x.tree.gob` for every type: the model of the deep copy in `Verif.Model.Gob`, type by type,
agrees with the generic description of gob in `Verif.Model.Heap`.
-/

namespace Verif
open Verif.Heap

set_option linter.unusedSimpArgs false

/-- One field of a struct. -/
def Heap.gobField : Tree → Tree
  | .ptr t => if t.zero then .nilPtr else .ptr t.gob
  | .scalar s => .scalar s.sent
  | t => t.gob

theorem gobFields_nil : gobFields [] = [] := by simp [gobFields]
theorem gobFields_cons (t : Tree) (ts : List Tree) : gobFields (t :: ts) = gobField t :: gobFields ts := by
  cases t <;> simp [gobFields, gobField]
theorem gobElems_eq (ts : List Tree) : gobElems ts = ts.map Tree.gob := by
  induction ts with
  | nil => simp [gobElems]
  | cons t ts ih => simp [gobElems, ih]

theorem field_str (s : String) : gobField (.str s) = .str s := rfl
theorem field_ref (s : BOMReference) : gobField (.ref s) = .ref s := rfl
theorem field_int (i : Int) : gobField (.int i) = .int i := rfl
theorem field_bool (b : Bool) : gobField (.bool b) = .bool b := rfl
theorem field_f32 (x : F32) : gobField (.f32 x) = .f32 x.noNegZero := rfl
theorem field_f64 (x : F64) : gobField (.f64 x) = .f64 x.noNegZero := rfl
theorem field_xmlName (n : XMLName) : gobField n.tree = n.tree := by
  rfl

theorem field_optStr (o : Option String) : gobField (.opt .str o) = .opt .str (Gob.string o) := by
  cases o with
  | none => simp [Tree.opt, gobField, Tree.gob, Gob.string]
  | some s => by_cases h : s = "" <;> simp [Tree.opt, gobField, Tree.gob, Gob.string, Tree.str, Tree.zero, h]
theorem field_optRef (o : Option BOMReference) : gobField (.opt .ref o) = .opt .ref (Gob.ref o) := by
  cases o with
  | none => simp [Tree.opt, gobField, Tree.gob, Gob.ref]
  | some s => by_cases h : s.val = "" <;> simp [Tree.opt, gobField, Tree.gob, Gob.ref, Tree.ref, Tree.zero, h]
theorem field_optInt (o : Option Int) : gobField (.opt .int o) = .opt .int (Gob.int o) := by
  cases o with
  | none => simp [Tree.opt, gobField, Tree.gob, Gob.int]
  | some s => by_cases h : s = 0 <;> simp [Tree.opt, gobField, Tree.gob, Gob.int, Tree.int, Tree.zero, h]
theorem field_optBool (o : Option Bool) : gobField (.opt .bool o) = .opt .bool (Gob.bool o) := by
  cases o with
  | none => simp [Tree.opt, gobField, Tree.gob, Gob.bool]
  | some s => cases s <;> simp [Tree.opt, gobField, Tree.gob, Gob.bool, Tree.bool, Tree.zero]
theorem field_optF32 (o : Option F32) : gobField (.opt .f32 o) = .opt .f32 (Gob.float32 o) := by
  cases o with
  | none => simp [Tree.opt, gobField, Tree.gob, Gob.float32]
  | some s => by_cases h : s.isZero <;> simp [Tree.opt, gobField, Tree.gob, Gob.float32, Tree.f32, Tree.zero, h]
theorem field_optF64 (o : Option F64) : gobField (.opt .f64 o) = .opt .f64 (Gob.float64 o) := by
  cases o with
  | none => simp [Tree.opt, gobField, Tree.gob, Gob.float64]
  | some s => by_cases h : s.isZero <;> simp [Tree.opt, gobField, Tree.gob, Gob.float64, Tree.f64, Tree.zero, h]

theorem field_opt {α : Type} {f : α → Tree} {g : α → α} (h : ∀ x, (f (g x)) = (f x).gob)
    (hz : ∀ x, (f x).zero = false) (o : Option α) : gobField (.opt f o) = .opt f (o.map g) := by
  cases o with
  | none => simp [Tree.opt, gobField, Tree.gob]
  | some x => simp [Tree.opt, gobField, hz, h]
theorem field_pslice {α : Type} {f : α → Tree} {g : α → α} (h : ∀ x, (f (g x)) = (f x).gob) (p : PSlice α) :
    gobField (.pslice f p) = .pslice f (p.copyWith g) := by
  rcases p with _ | _ | ⟨_ | ⟨x, xs⟩⟩ <;>
    simp [Tree.pslice, gobField, Tree.gob, Tree.zero, PSlice.copyWith, gobElems_eq, h, Function.comp_def]
theorem field_psliceStr (p : PSlice String) : gobField (.pslice .str p) = .pslice .str (p.copyWith _root_.id) :=
  field_pslice (fun _ => by simp [Tree.str, Tree.gob]) p
theorem field_psliceInt (p : PSlice Int) : gobField (.pslice .int p) = .pslice .int (p.copyWith _root_.id) :=
  field_pslice (fun _ => by simp [Tree.int, Tree.gob]) p
theorem field_psliceRef (p : PSlice BOMReference) :
    gobField (.pslice .ref p) = .pslice .ref (p.copyWith _root_.id) :=
  field_pslice (fun _ => by simp [Tree.ref, Tree.gob]) p
'''
L = {'string': 'Str', 'bool': 'Bool', 'int': 'Int', 'float32': 'F32', 'float64': 'F64', 'ref': 'Ref'}
def lem(f, rec={}):
    t = f.ty
    if f.name in rec: return rec[f.name]
    s = slice_elem(t)
    if s is not None:
        k = kind(s)
        return f'field_pslice {s}.tree_gob' if k == 'struct' else f'field_pslice{L[k]}'
    if t.startswith('*'):
        k = kind(t[1:])
        return f'field_opt {t[1:]}.tree_gob {t[1:]}.tree_zero' if k == 'struct' else f'field_opt{L[k]}'
    k = kind(t)
    if k == 'struct': return f'{t}.field_gob'
    return 'field_' + {'string': 'str', 'bool': 'bool', 'int': 'int', 'float32': 'f32', 'float64': 'f64', 'ref': 'ref', 'xmlname': 'xmlName'}[k]

def lems(fields, rec={}):
    r = []
    for f in fields:
        l = lem(f, rec)
        if l not in r: r.append(l)
    return ', '.join(r)

def proofs():
    o = [PHEAD]; w = o.append
    for n in ORDER:
        s = structs[n]
        if n == 'Pedigree': continue
        if n in ('Component', 'Service'):
            l = n.lower()
            rec = {f.name: f'{l}sTree_gob {f.name}' for f in s.fields if slice_elem(f.ty) == n}
            ped = ''
            if n == 'Component':
                rec['pedigree'] = 'pedigreeOptTree_gob pedigree'
                P = structs['Pedigree']
                prec = {f.name: f'componentsTree_gob {f.name}' for f in P.fields if slice_elem(f.ty) == 'Component'}
                ped = f'''
theorem pedigreeOptTree_gob : ∀ p : Option (Pedigree Component), gobField (pedigreeOptTree p) = pedigreeOptTree (copyPedigreeOpt p)
  | none => by simp only [pedigreeOptTree, copyPedigreeOpt, gobField, Tree.gob]
  | some p => by
    have h : (pedigreeTree p).zero = false := by cases p; simp only [pedigreeTree, Tree.zero]
    simp only [pedigreeOptTree, copyPedigreeOpt, gobField, h, pedigreeTree_gob p, Bool.false_eq_true, if_false]
theorem pedigreeTree_gob : ∀ p : Pedigree Component, pedigreeTree (copyPedigree p) = (pedigreeTree p).gob
  | .mk {' '.join(f.name for f in P.fields)} => by
    simp only [pedigreeTree, copyPedigree, Tree.gob, gobFields_cons, gobFields_nil, {lems(P.fields, prec)}]'''
            w(f'''mutual
theorem {n}.tree_gob : ∀ x : {n}, x.copy.tree = x.tree.gob
  | .mk {' '.join(f.name for f in s.fields)} => by
    simp only [{n}.tree, {n}.copy, Tree.gob, gobFields_cons, gobFields_nil, {lems(s.fields, rec)}]
theorem {l}sTree_gob : ∀ p : PSlice {n}, gobField ({l}sTree p) = {l}sTree (copy{n}s p)
  | .nil => by simp only [{l}sTree, copy{n}s, gobField, Tree.gob]
  | .nilSlice => by simp [{l}sTree, copy{n}s, gobField, Tree.zero]
  | .list [] => by simp [{l}sTree, copy{n}s, gobField, Tree.zero, {l}ListTree]
  | .list (x :: xs) => by
    simp [{l}sTree, copy{n}s, gobField, Tree.zero, {l}ListTree, Tree.gob, gobElems, {n}.tree_gob x, {l}ListTree_gob xs]
theorem {l}ListTree_gob : ∀ xs : List {n}, {l}ListTree (copy{n}List xs) = gobElems ({l}ListTree xs)
  | [] => by simp only [{l}ListTree, copy{n}List, gobElems]
  | x :: xs => by simp only [{l}ListTree, copy{n}List, gobElems, {n}.tree_gob x, {l}ListTree_gob xs]{ped}
end
theorem {n}.tree_zero (x : {n}) : x.tree.zero = false := by cases x; simp only [{n}.tree, Tree.zero]
'''); continue
        w(f'''theorem {n}.tree_gob (x : {n}) : x.copy.tree = x.tree.gob := by
  simp only [{n}.tree, {n}.copy, Tree.gob, gobFields_cons, gobFields_nil, {lems(s.fields)}]
theorem {n}.tree_zero (x : {n}) : x.tree.zero = false := rfl
theorem {n}.field_gob (x : {n}) : gobField x.tree = x.copy.tree := (tree_gob x).symm
''')
    w('end Verif')
    return '\n'.join(o) + '\n'

if __name__ == '__main__':
    base = os.path.join(os.path.dirname(os.path.abspath(__file__)), '..', 'lean', 'Verif')
    open(base + '/Model/Trees.lean', 'w').write(model())
    open(base + '/Proofs/Trees.lean', 'w').write(proofs())
