#!/usr/bin/env python3
"""Generates lean/Verif/Proofs/TreeInj.lean: a value is determined by its tree."""
import os, sys
sys.path.insert(0, os.path.dirname(__file__))
from gostructs import structs
from gen_types import ORDER
from gen_plain import slice_elem
from gen_gob import kind

SC = {'string': 'str_inj', 'bool': 'bool_inj', 'int': 'int_inj', 'float32': 'f32_inj', 'float64': 'f64_inj', 'ref': 'ref_inj', 'xmlname': 'XMLName.tree_inj'}

def name(t):
    k = kind(t)
    return f'@{t}.tree_inj' if k == 'struct' else '@' + SC[k]

def lem(f):
    t = f.ty
    s = slice_elem(t)
    if s is not None: return f'pslice_inj {name(s)}'
    if t.startswith('*'): return f'opt_inj {name(t[1:])}'
    return name(t).lstrip('@')

HEAD = '''import Verif.Proofs.Fields
import Verif.Model.Recurse

/-!
# A value is determined by its tree

GENERATED by `tools/gen_treeinj.py`; do not edit by hand.
-/

namespace Verif
open Verif.Heap

theorem str_inj {a b : String} (h : Tree.str a = .str b) : a = b := by
  simpa only [Tree.str, Tree.scalar.injEq, Scalar.str.injEq] using h
theorem ref_inj {a b : BOMReference} (h : Tree.ref a = .ref b) : a = b := by
  cases a; cases b
  simpa only [Tree.ref, Tree.scalar.injEq, Scalar.str.injEq, BOMReference.mk.injEq] using h
theorem int_inj {a b : Int} (h : Tree.int a = .int b) : a = b := by
  simpa only [Tree.int, Tree.scalar.injEq, Scalar.int.injEq] using h
theorem bool_inj {a b : Bool} (h : Tree.bool a = .bool b) : a = b := by
  simpa only [Tree.bool, Tree.scalar.injEq, Scalar.bool.injEq] using h
theorem f32_inj {a b : F32} (h : Tree.f32 a = .f32 b) : a = b := by
  simpa only [Tree.f32, Tree.scalar.injEq, Scalar.f32.injEq] using h
theorem f64_inj {a b : F64} (h : Tree.f64 a = .f64 b) : a = b := by
  simpa only [Tree.f64, Tree.scalar.injEq, Scalar.f64.injEq] using h
theorem XMLName.tree_inj {a b : XMLName} (h : a.tree = b.tree) : a = b := by
  obtain ⟨a1, a2⟩ := a
  obtain ⟨b1, b2⟩ := b
  simp only [XMLName.tree, Tree.agg.injEq, List.cons.injEq, and_true] at h
  cases str_inj h.1
  cases str_inj h.2
  rfl

theorem opt_injAt {α : Type} {f : α → Tree} {a b : Option α} (hf : ∀ x, a = some x → ∀ y, f x = f y → x = y)
    (h : Tree.opt f a = .opt f b) : a = b := by
  cases a with
  | none => cases b with
    | none => rfl
    | some b => cases h
  | some a => cases b with
    | none => cases h
    | some b =>
      simp only [Tree.opt, Tree.ptr.injEq] at h
      rw [hf a rfl b h]

theorem map_injAt {α : Type} {f : α → Tree} : ∀ {xs ys : List α}, (∀ x ∈ xs, ∀ y, f x = f y → x = y) →
    xs.map f = ys.map f → xs = ys
  | [], [], _, _ => rfl
  | [], _ :: _, _, h => by simp at h
  | _ :: _, [], _, h => by simp at h
  | x :: xs, y :: ys, hf, h => by
    simp only [List.map_cons, List.cons.injEq] at h
    rw [hf x (List.mem_cons_self ..) y h.1, map_injAt (fun z hz => hf z (List.mem_cons_of_mem _ hz)) h.2]

theorem pslice_injAt {α : Type} {f : α → Tree} {a b : PSlice α} (hf : ∀ x ∈ a.elems, ∀ y, f x = f y → x = y)
    (h : Tree.pslice f a = .pslice f b) : a = b := by
  cases a with
  | nil => cases b with
    | nil => rfl
    | nilSlice => cases h
    | list => cases h
  | nilSlice => cases b with
    | nil => cases h
    | nilSlice => rfl
    | list ys => simp only [Tree.pslice, Tree.ptr.injEq] at h; cases h
  | list xs => cases b with
    | nil => cases h
    | nilSlice => simp only [Tree.pslice, Tree.ptr.injEq] at h; cases h
    | list ys =>
      simp only [Tree.pslice, Tree.ptr.injEq, Tree.slice.injEq] at h
      rw [map_injAt (xs := xs) hf h]

theorem opt_inj {α : Type} {f : α → Tree} (hf : ∀ {x y}, f x = f y → x = y) {a b : Option α}
    (h : Tree.opt f a = .opt f b) : a = b := opt_injAt (fun _ _ _ e => hf e) h

theorem pslice_inj {α : Type} {f : α → Tree} (hf : ∀ {x y}, f x = f y → x = y) {a b : PSlice α}
    (h : Tree.pslice f a = .pslice f b) : a = b := pslice_injAt (fun _ _ _ e => hf e) h
'''

def body(n, ls, eq, ind):
    s = structs[n]; k = len(s.fields)
    o = []
    p = ' ' * ind
    o.append(f"{p}obtain ⟨{', '.join(f'a{i}' for i in range(k))}⟩ := a")
    o.append(f"{p}obtain ⟨{', '.join(f'b{i}' for i in range(k))}⟩ := b")
    o.append(f"{p}simp only [{eq}, Tree.agg.injEq, List.cons.injEq, and_true] at h")
    o.append(f"{p}obtain ⟨{', '.join(f'h{i}' for i in range(k))}⟩ := h" if k > 1 else f"{p}have h0 := h")
    for i, l in enumerate(ls):
        o.append(f"{p}cases {l} h{i}")
    o.append(f"{p}rfl")
    return '\n'.join(o)

def main():
    o = [HEAD]; w = o.append
    for n in ORDER:
        s = structs[n]
        if n == 'Pedigree': continue
        if n == 'Service':
            ls = ['pslice_injAt (fun d hd e he => ih d hd e he)' if slice_elem(f.ty) == n else lem(f) for f in s.fields]
            w(f'''theorem Service.tree_inj {{a b : Service}} (h : a.tree = b.tree) : a = b := by
  induction a using Service.induct generalizing b with
  | h a ih =>
  replace ih : ∀ d ∈ a.children, ∀ e, d.tree = e.tree → d = e := fun d hd e he => ih d hd he
''' + body(n, ls, 'Service.tree_eq', 2) + '\n'); continue
        if n == 'Component':
            P = structs['Pedigree']
            pl = ['pslice_injAt (fun d hd e he => ih d (by simp [Pedigree.relatives, hd]) e he)' if slice_elem(f.ty) == n else lem(f) for f in P.fields]
            w(f'''theorem Pedigree.tree_inj {{a b : Pedigree Component}} (ih : ∀ d ∈ a.relatives, ∀ e, d.tree = e.tree → d = e)
    (h : pedigreeTree a = pedigreeTree b) : a = b := by
''' + body('Pedigree', pl, 'Pedigree.tree_eq', 2) + '\n')
            ls = []
            for f in s.fields:
                if f.name == 'pedigree': ls.append('opt_injAt (fun p hp q hq => Pedigree.tree_inj (fun d hd e he => ih d (mem p hp d hd) e he) hq)')
                elif slice_elem(f.ty) == n: ls.append('pslice_injAt (fun d hd e he => ih d (List.mem_append_left _ hd) e he)')
                else: ls.append(lem(f))
            pi = [f.name for f in s.fields].index('pedigree')
            b = body(n, ls, 'Component.tree_eq', 2).split('\n')
            w(f'''theorem Component.tree_inj {{a b : Component}} (h : a.tree = b.tree) : a = b := by
  induction a using Component.induct generalizing b with
  | h a ih =>
  replace ih : ∀ d ∈ a.children, ∀ e, d.tree = e.tree → d = e := fun d hd e he => ih d hd he
  have mem : ∀ p, a.pedigree = some p → ∀ d ∈ p.relatives, d ∈ a.children := fun p hp d hd => by
    unfold Component.children
    rw [hp]
    exact List.mem_append_right _ hd
''' + '\n'.join(b) + '\n'); continue
        w(f'theorem {n}.tree_inj {{a b : {n}}} (h : a.tree = b.tree) : a = b := by\n' + body(n, [lem(f) for f in s.fields], f'{n}.tree', 2) + '\n')
    w('end Verif')
    open(os.path.join(os.path.dirname(__file__), '../lean/Verif/Proofs/TreeInj.lean'), 'w').write('\n'.join(o) + '\n')
main()
