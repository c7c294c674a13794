#!/usr/bin/env python3
"""Generates lean/Verif/Model/Gob.lean (the deep copy through encoding/gob), lean/Verif/Spec/Copyable.lean (which
values it leaves alone) and lean/Verif/Proofs/Gob.lean."""
import os, re, sys
sys.path.insert(0, os.path.dirname(__file__))
from gostructs import structs, named
from gen_types import ORDER
from gen_plain import slice_elem
from gen_writable import nt, pred

def kind(t):
    if t == 'string': return 'string'
    if t in ('bool', 'int', 'float32', 'float64'): return t
    if t == 'BOMReference': return 'ref'
    if t == 'SpecVersion': return 'int'
    if t in named: return 'string'
    if t == 'xml.Name': return 'xmlname'
    return 'struct'

PTR = {'string': 'Gob.string', 'bool': 'Gob.bool', 'int': 'Gob.int', 'float32': 'Gob.float32', 'float64': 'Gob.float64', 'ref': 'Gob.ref'}

def copyexpr(f, v, rec={}):
    t = f.ty
    if f.name in rec: return rec[f.name]
    s = slice_elem(t)
    if s is not None:
        k = kind(s)
        if k == 'struct': return f'{v}.copyWith {s}.copy'
        assert k in ('string', 'int', 'ref'), (s, k)
        return f'{v}.copyWith _root_.id'
    if t.startswith('*'):
        k = kind(t[1:])
        if k == 'struct': return f'{v}.map {t[1:]}.copy'
        return f'{PTR[k]} {v}'
    k = kind(t)
    if k == 'struct': return f'{v}.copy'
    if k in ('float32', 'float64'): return f'{v}.noNegZero'
    return v

def cond(f, v, rec={}):
    t = f.ty
    if f.name in rec: return rec[f.name]
    s = slice_elem(t)
    if s is not None:
        if kind(s) == 'struct': return f'{v}.Filled {s}.Copyable'
        return f'{v}.Filled (fun _ => True)'
    if t.startswith('*'):
        k = kind(t[1:])
        if k == 'struct': return f'(∀ y ∈ {v}, {t[1:]}.Copyable y)'
        return {'string': f'{v} ≠ some ""', 'ref': f'{v} ≠ some ⟨""⟩', 'bool': f'{v} ≠ some false', 'int': f'{v} ≠ some 0',
                'float32': f'(∀ y ∈ {v}, ¬ y.isZero)', 'float64': f'(∀ y ∈ {v}, ¬ y.isZero)'}[k]
    k = kind(t)
    if k == 'struct': return f'{v}.Copyable'
    if k in ('float32', 'float64'): return f'{v} ≠ {v}.negZero'.replace(f'{v}.negZero', 'F32.negZero' if k == 'float32' else 'F64.negZero')
    return None

def pat(fields, body): return ' '.join(f.name if re.search(r'\b' + f.name + r'\b', body) else '_' for f in fields)

MODELHEAD = '''import Verif.Model.Types

/-!
# The deep copy: model of /repo/copy.go

GENERATED by `tools/gen_gob.py` from the struct declarations of `/repo/cyclonedx.go`; do not edit by hand.

`BOM.copy` (copy.go:30-43) encodes the BOM with `encoding/gob` and decodes it into a new variable.  gob has no
pointers: a struct field is sent if it is not the zero value of its type *after* following pointers, and an
empty slice counts as zero; a field that is not sent stays nil in the new variable.  So

* a pointer to `false`, `0` or `""` becomes nil, and so does a pointer to a zero or negative zero
  floating-point number;
* a pointer to a nil or empty slice becomes nil;
* a floating-point field holding negative zero becomes zero (gob compares with `!= 0`);
* a pointer to a struct is sent even if all its fields are zero, and so is a struct that is not behind a pointer;
* the elements of a slice are all sent.

None of the types has a custom gob encoding, an interface, a map, a channel, a slice of pointers or no exported
field, so encoding and decoding cannot fail.  Not modelled: gob refuses messages of more than one gigabyte,
and does not end on a cyclic BOM (a slice that contains itself).
-/

namespace Verif

/-- Negative zero. -/
def F32.negZero : F32 := ⟨0x80000000⟩
/-- Negative zero. -/
def F64.negZero : F64 := ⟨0x8000000000000000⟩
/-- Go's `x == 0`. -/
def F32.isZero (x : F32) : Bool := x = ⟨0⟩ ∨ x = F32.negZero
/-- Go's `x == 0`. -/
def F64.isZero (x : F64) : Bool := x = ⟨0⟩ ∨ x = F64.negZero
/-- A number sent by gob as a struct field: negative zero is not sent. -/
def F32.noNegZero (x : F32) : F32 := if x = F32.negZero then ⟨0⟩ else x
/-- A number sent by gob as a struct field: negative zero is not sent. -/
def F64.noNegZero (x : F64) : F64 := if x = F64.negZero then ⟨0⟩ else x

namespace Gob
/-- `*string` and pointers to named string types, as a struct field. -/
def string : Option String → Option String
  | some s => if s = "" then none else some s
  | none => none
/-- `*BOMReference` -/
def ref : Option BOMReference → Option BOMReference
  | some s => if s.val = "" then none else some s
  | none => none
/-- `*bool` -/
def bool : Option Bool → Option Bool
  | some b => if b then some b else none
  | none => none
/-- `*int` -/
def int : Option Int → Option Int
  | some i => if i = 0 then none else some i
  | none => none
/-- `*float32` -/
def float32 : Option F32 → Option F32
  | some x => if x.isZero then none else some x
  | none => none
/-- `*float64` -/
def float64 : Option F64 → Option F64
  | some x => if x.isZero then none else some x
  | none => none
end Gob

/-- `*[]T` as a struct field. -/
def PSlice.copyWith {α : Type} (f : α → α) : PSlice α → PSlice α
  | .list (x :: xs) => .list (f x :: xs.map f)
  | _ => .nil
'''

def model():
    o = [MODELHEAD]; w = o.append
    for n in ORDER:
        s = structs[n]
        if n == 'Pedigree': continue
        if n == 'Component':
            rec = {f.name: 'copyComponents components' for f in s.fields if slice_elem(f.ty) == 'Component'}
            rec['pedigree'] = 'copyPedigreeOpt pedigree'
            P = structs['Pedigree']
            prec = {f.name: f'copyComponents {f.name}' for f in P.fields if slice_elem(f.ty) == 'Component'}
            w(f'''mutual
/-- cyclonedx.go:{s.a}-{s.b} -/
def Component.copy : Component → Component
  | .mk {' '.join(f.name for f in s.fields)} =>
    .mk {' '.join('(' + copyexpr(f, f.name, rec) + ')' for f in s.fields)}
/-- A list of components. -/
def copyComponents : PSlice Component → PSlice Component
  | .list (x :: xs) => .list (x.copy :: copyComponentList xs)
  | _ => .nil
/-- The elements of a list of components. -/
def copyComponentList : List Component → List Component
  | [] => []
  | c :: cs => c.copy :: copyComponentList cs
/-- `*Pedigree` -/
def copyPedigreeOpt : Option (Pedigree Component) → Option (Pedigree Component)
  | none => none
  | some p => some (copyPedigree p)
/-- cyclonedx.go:{P.a}-{P.b} -/
def copyPedigree : Pedigree Component → Pedigree Component
  | .mk {' '.join(f.name for f in P.fields)} =>
    .mk {' '.join('(' + copyexpr(f, f.name, prec) + ')' for f in P.fields)}
end
'''); continue
        if n == 'Service':
            rec = {f.name: 'copyServices services' for f in s.fields if slice_elem(f.ty) == 'Service'}
            w(f'''mutual
/-- cyclonedx.go:{s.a}-{s.b} -/
def Service.copy : Service → Service
  | .mk {' '.join(f.name for f in s.fields)} =>
    .mk {' '.join('(' + copyexpr(f, f.name, rec) + ')' for f in s.fields)}
/-- A list of services. -/
def copyServices : PSlice Service → PSlice Service
  | .list (x :: xs) => .list (x.copy :: copyServiceList xs)
  | _ => .nil
/-- The elements of a list of services. -/
def copyServiceList : List Service → List Service
  | [] => []
  | c :: cs => c.copy :: copyServiceList cs
end
'''); continue
        es = [copyexpr(f, 'x.' + f.name) for f in s.fields]
        w(f'''/-- cyclonedx.go:{s.a}-{s.b} -/
def {n}.copy (x : {n}) : {n} :=
  ⟨{', '.join(es)}⟩
''')
    w('end Verif')
    return '\n'.join(o) + '\n'

def spec():
    o = ['''import Verif.Model.Gob

/-!
# The values that the deep copy leaves alone

GENERATED by `tools/gen_gob.py` from the struct declarations of `/repo/cyclonedx.go`; do not edit by hand.

`T.Copyable x`: nowhere in `x` is a pointer to a zero scalar, a pointer to a nil or empty slice, or a negative
zero.
-/

namespace Verif

/-- Not a pointer to a nil or empty slice, and every element satisfies `P`. -/
def PSlice.Filled {α : Type} (P : α → Prop) (p : PSlice α) : Prop :=
  p ≠ .nilSlice ∧ p ≠ .list [] ∧ ∀ x ∈ p.elems, P x
''']; w = o.append
    for n in ORDER:
        s = structs[n]
        if n == 'Pedigree': continue
        if n == 'Component':
            rec = {f.name: 'CopyableComponents components' for f in s.fields if slice_elem(f.ty) == 'Component'}
            rec['pedigree'] = 'CopyablePedigreeOpt pedigree'
            P = structs['Pedigree']
            prec = {f.name: f'CopyableComponents {f.name}' for f in P.fields if slice_elem(f.ty) == 'Component'}
            body = ' ∧\n    '.join(c for f in s.fields for c in [cond(f, f.name, rec)] if c)
            pb = ' ∧\n    '.join(c for f in P.fields for c in [cond(f, f.name, prec)] if c)
            w(f'''mutual
/-- cyclonedx.go:{s.a}-{s.b} -/
def Component.Copyable : Component → Prop
  | .mk {pat(s.fields, body)} =>
    {body}
/-- A list of components. -/
def CopyableComponents : PSlice Component → Prop
  | .nil => True
  | .list (c :: cs) => c.Copyable ∧ CopyableComponentList cs
  | _ => False
/-- The elements of a list of components. -/
def CopyableComponentList : List Component → Prop
  | [] => True
  | c :: cs => c.Copyable ∧ CopyableComponentList cs
/-- `*Pedigree` -/
def CopyablePedigreeOpt : Option (Pedigree Component) → Prop
  | none => True
  | some p => CopyablePedigree p
/-- cyclonedx.go:{P.a}-{P.b} -/
def CopyablePedigree : Pedigree Component → Prop
  | .mk {pat(P.fields, pb)} =>
    {pb}
end
'''); continue
        if n == 'Service':
            rec = {f.name: 'CopyableServices services' for f in s.fields if slice_elem(f.ty) == 'Service'}
            body = ' ∧\n    '.join(c for f in s.fields for c in [cond(f, f.name, rec)] if c)
            w(f'''mutual
/-- cyclonedx.go:{s.a}-{s.b} -/
def Service.Copyable : Service → Prop
  | .mk {pat(s.fields, body)} =>
    {body}
/-- A list of services. -/
def CopyableServices : PSlice Service → Prop
  | .nil => True
  | .list (c :: cs) => c.Copyable ∧ CopyableServiceList cs
  | _ => False
/-- The elements of a list of services. -/
def CopyableServiceList : List Service → Prop
  | [] => True
  | c :: cs => c.Copyable ∧ CopyableServiceList cs
end
'''); continue
        cs = [c for f in s.fields for c in [cond(f, 'x.' + f.name)] if c]
        x = 'x' if cs else '_'
        w(f'''/-- cyclonedx.go:{s.a}-{s.b} -/
def {n}.Copyable ({x} : {n}) : Prop :=
  {(' ∧' + chr(10) + '  ').join(cs) if cs else 'True'}
''')
    w('''/-- A choice of tools with at least one entry. -/
def ToolsChoice.NonEmpty (x : ToolsChoice) : Prop :=
  x.tools.elems ≠ [] ∨ x.components.elems ≠ [] ∨ x.services.elems ≠ []

/-- Every choice of tools in the document has at least one entry. -/
def BOM.ToolsNonEmpty (b : BOM) : Prop :=
  (∀ m ∈ b.metadata, ∀ t ∈ m.tools, t.NonEmpty) ∧
  (∀ x ∈ b.vulnerabilities.elems, ∀ t ∈ x.tools, t.NonEmpty)
''')
    w('end Verif')
    return '\n'.join(o) + '\n'

PROOFHEAD = '''import Verif.Spec.Copyable
import Verif.Spec.Writable
import Verif.Model.Recurse

/-!
# Laws of the deep copy

GENERATED by `tools/gen_gob.py`; do not edit by hand.
-/

namespace Verif

set_option linter.unusedSimpArgs false

theorem Gob.string_eq (o : Option String) : Gob.string o = o ↔ o ≠ some "" := by
  cases o with
  | none => simp [Gob.string]
  | some s => by_cases h : s = "" <;> simp [Gob.string, h]
theorem BOMReference.ext_iff' {a b : BOMReference} : a = b ↔ a.val = b.val := by
  cases a; cases b; simp
theorem Gob.ref_eq (o : Option BOMReference) : Gob.ref o = o ↔ o ≠ some ⟨""⟩ := by
  cases o with
  | none => simp [Gob.ref]
  | some s => by_cases h : s.val = "" <;> simp [Gob.ref, BOMReference.ext_iff', h]
theorem Gob.bool_eq (o : Option Bool) : Gob.bool o = o ↔ o ≠ some false := by
  cases o with
  | none => simp [Gob.bool]
  | some b => cases b <;> simp [Gob.bool]
theorem Gob.int_eq (o : Option Int) : Gob.int o = o ↔ o ≠ some 0 := by
  cases o with
  | none => simp [Gob.int]
  | some s => by_cases h : s = 0 <;> simp [Gob.int, h]
theorem Gob.float32_eq (o : Option F32) : Gob.float32 o = o ↔ ∀ y ∈ o, ¬ y.isZero := by
  cases o with
  | none => simp [Gob.float32]
  | some s => by_cases h : s.isZero <;> simp [Gob.float32, h]
theorem Gob.float64_eq (o : Option F64) : Gob.float64 o = o ↔ ∀ y ∈ o, ¬ y.isZero := by
  cases o with
  | none => simp [Gob.float64]
  | some s => by_cases h : s.isZero <;> simp [Gob.float64, h]
theorem F32.noNegZero_eq (x : F32) : x.noNegZero = x ↔ x ≠ F32.negZero := by
  unfold F32.noNegZero
  split
  · rename_i h; rw [h]; decide
  · rename_i h; simp [h]
theorem F64.noNegZero_eq (x : F64) : x.noNegZero = x ↔ x ≠ F64.negZero := by
  unfold F64.noNegZero
  split
  · rename_i h; rw [h]; decide
  · rename_i h; simp [h]

theorem Option.map_eq_self_iff' {α : Type} {f : α → α} (o : Option α) : o.map f = o ↔ ∀ y ∈ o, f y = y := by
  cases o <;> simp

theorem PSlice.copyWith_eq {α : Type} {f : α → α} (p : PSlice α) :
    p.copyWith f = p ↔ p.Filled fun x => f x = x := by
  have hm : ∀ xs : List α, xs.map f = xs ↔ ∀ x ∈ xs, f x = x := by
    intro xs
    induction xs with
    | nil => simp
    | cons x xs ih => simp [ih]
  cases p with
  | nil => simp [PSlice.copyWith, PSlice.Filled, PSlice.elems]
  | nilSlice => simp [PSlice.copyWith, PSlice.Filled, PSlice.elems]
  | list xs => cases xs <;> simp [PSlice.copyWith, PSlice.Filled, PSlice.elems, hm]

theorem PSlice.copyWith_id_eq {α : Type} (p : PSlice α) : p.copyWith _root_.id = p ↔ p.Filled fun _ => True := by
  rw [PSlice.copyWith_eq]
  simp [PSlice.Filled]

/-! ## The copy of a copy -/

theorem Gob.string_idem (o : Option String) : Gob.string (Gob.string o) = Gob.string o := by
  cases o with
  | none => rfl
  | some s => by_cases h : s = "" <;> simp [Gob.string, h]
theorem Gob.ref_idem (o : Option BOMReference) : Gob.ref (Gob.ref o) = Gob.ref o := by
  cases o with
  | none => rfl
  | some s => by_cases h : s.val = "" <;> simp [Gob.ref, BOMReference.ext_iff', h]
theorem Gob.bool_idem (o : Option Bool) : Gob.bool (Gob.bool o) = Gob.bool o := by
  cases o with
  | none => rfl
  | some b => cases b <;> rfl
theorem Gob.int_idem (o : Option Int) : Gob.int (Gob.int o) = Gob.int o := by
  cases o with
  | none => rfl
  | some s => by_cases h : s = 0 <;> simp [Gob.int, h]
theorem Gob.float32_idem (o : Option F32) : Gob.float32 (Gob.float32 o) = Gob.float32 o := by
  cases o with
  | none => rfl
  | some s => by_cases h : s.isZero <;> simp [Gob.float32, h]
theorem Gob.float64_idem (o : Option F64) : Gob.float64 (Gob.float64 o) = Gob.float64 o := by
  cases o with
  | none => rfl
  | some s => by_cases h : s.isZero <;> simp [Gob.float64, h]
theorem F32.noNegZero_idem (x : F32) : x.noNegZero.noNegZero = x.noNegZero := by
  by_cases h : x = F32.negZero <;> simp [F32.noNegZero, h]
theorem F64.noNegZero_idem (x : F64) : x.noNegZero.noNegZero = x.noNegZero := by
  by_cases h : x = F64.negZero <;> simp [F64.noNegZero, h]
theorem PSlice.copyWith_idem {α : Type} {f : α → α} (h : ∀ x, f (f x) = f x) (p : PSlice α) :
    (p.copyWith f).copyWith f = p.copyWith f := by
  match p with
  | .nil => rfl
  | .nilSlice => rfl
  | .list [] => rfl
  | .list (x :: xs) => simp [PSlice.copyWith, h]
theorem PSlice.copyWith_id_idem {α : Type} (p : PSlice α) : (p.copyWith _root_.id).copyWith _root_.id = p.copyWith _root_.id :=
  PSlice.copyWith_idem (fun _ => rfl) p
theorem Option.map_idem' {α : Type} {f : α → α} (h : ∀ x, f (f x) = f x) (o : Option α) :
    (o.map f).map f = o.map f := by cases o <;> simp [h]

/-! ## What can be written stays so -/

theorem Gob.float32_mem {o : Option F32} {x : F32} (h : x ∈ Gob.float32 o) : x ∈ o := by
  cases o with
  | none => exact h
  | some s =>
    by_cases hs : s.isZero
    · simp [Gob.float32, hs] at h
    · simpa [Gob.float32, hs] using h
theorem Gob.float64_mem {o : Option F64} {x : F64} (h : x ∈ Gob.float64 o) : x ∈ o := by
  cases o with
  | none => exact h
  | some s =>
    by_cases hs : s.isZero
    · simp [Gob.float64, hs] at h
    · simpa [Gob.float64, hs] using h
theorem F32.finite_noNegZero {x : F32} (h : x.Finite) : x.noNegZero.Finite := by
  unfold F32.noNegZero
  split
  · decide
  · exact h
theorem PSlice.mem_copyWith {α : Type} {f : α → α} {p : PSlice α} {x : α} (h : x ∈ (p.copyWith f).elems) :
    ∃ y ∈ p.elems, x = f y := by
  match p, h with
  | .nil, h => simp [PSlice.copyWith, PSlice.elems] at h
  | .nilSlice, h => simp [PSlice.copyWith, PSlice.elems] at h
  | .list [], h => simp [PSlice.copyWith, PSlice.elems] at h
  | .list (y :: ys), h =>
    simp only [PSlice.copyWith, PSlice.elems, List.mem_cons, List.mem_map] at h
    rcases h with rfl | ⟨z, hz, rfl⟩
    · exact ⟨y, by simp [PSlice.elems], rfl⟩
    · exact ⟨z, by simp [PSlice.elems, hz], rfl⟩
theorem PSlice.copyWith_all {α : Type} {f : α → α} {P : α → Prop} {p : PSlice α} (hf : ∀ x, P x → P (f x))
    (h : ∀ x ∈ p.elems, P x) : ∀ x ∈ (p.copyWith f).elems, P x := by
  intro x hx
  obtain ⟨y, hy, rfl⟩ := PSlice.mem_copyWith hx
  exact hf y (h y hy)
theorem Option.map_all {α : Type} {f : α → α} {P : α → Prop} {o : Option α} (hf : ∀ x, P x → P (f x))
    (h : ∀ x ∈ o, P x) : ∀ x ∈ o.map f, P x := by
  intro x hx
  obtain ⟨y, hy, rfl⟩ := Option.map_eq_some_iff.1 hx
  exact hf y (h y hy)
'''

def idemlist(idm):
    st = [l for l in idm if not l.startswith(('Gob', 'F32', 'F64'))]
    return ', '.join(['PSlice.copyWith_id_idem'] + [f"Option.map_idem' {l}" for l in st] + [f'PSlice.copyWith_idem {l}' for l in st] + idm)

def pedterms(pf):
    return ', '.join(f"copyComponents_writable (fun d hd => ih' d (by simp [Pedigree.relatives, hd])) w{i}" if slice_elem(f.ty) == 'Component' else wterm(f, f'w{i}') for i, f in enumerate(pf))

def lem(f, suffix):
    """lemma name(s) for a field"""
    t = f.ty; s = slice_elem(t)
    if s is not None:
        if kind(s) == 'struct': return [f'{s}.copy_{suffix}']
        return []
    b = t.lstrip('*'); k = kind(b)
    if k == 'struct': return [f'{b}.copy_{suffix}']
    if t.startswith('*'): return [f'{PTR[k]}_{suffix}']
    if k == 'float32': return [f'F32.noNegZero_{suffix}']
    if k == 'float64': return [f'F64.noNegZero_{suffix}']
    return []

def wterm(f, h):
    """proof that the condition on field f holds after the copy, from h"""
    t = f.ty; s = slice_elem(t)
    if s is not None: return f'PSlice.copyWith_all (fun _ => {s}.copy_writable) {h}'
    b = t.lstrip('*'); k = kind(b)
    if t.startswith('*'):
        if k == 'struct': return f'Option.map_all (fun _ => {b}.copy_writable) {h}'
        return f'fun x hx => {h} x ({PTR[k]}_mem hx)'
    if k == 'struct': return f'{b}.copy_writable {h}'
    return f'F32.finite_noNegZero {h}'

WHAND = {}
WHAND['License'] = '''theorem License.copy_writable {x : License} (h : x.Writable) : x.copy.Writable := h
'''
WHAND['EvidenceIdentityChoice'] = '''theorem EvidenceIdentityChoice.copy_writable {x : EvidenceIdentityChoice} (h : x.Writable) : x.copy.Writable := by
  obtain ⟨h1, h2, h3⟩ := h
  refine ⟨?_, Option.map_all (fun _ => EvidenceIdentity.copy_writable) h2,
    PSlice.copyWith_all (fun _ => EvidenceIdentity.copy_writable) h3⟩
  rcases h1 with h1 | h1
  · exact .inl (by simp [EvidenceIdentityChoice.copy, h1])
  · exact .inr (by simp [EvidenceIdentityChoice.copy, h1, PSlice.copyWith])
'''
WHAND['CertificateState'] = '''theorem CertificateState.copy_writable {x : CertificateState} (h : x.Writable) : x.copy.Writable := by
  rcases h with h | h
  · exact .inl (by simp [CertificateState.copy, h])
  · exact .inr (by simp [CertificateState.copy, h])
'''
WHAND['CertificateExtension'] = '''theorem CertificateExtension.copy_writable {x : CertificateExtension} (h : x.Writable) : x.copy.Writable := by
  rcases h with h | h
  · exact .inl (by simp [CertificateExtension.copy, h])
  · exact .inr (by simp [CertificateExtension.copy, h])
'''
WHAND['ToolsChoice'] = '''theorem PSlice.copyWith_ne_nil {α : Type} {f : α → α} {p : PSlice α} (h : p.elems ≠ []) :
    p.copyWith f ≠ .nil := by
  match p, h with
  | .nil, h => simp [PSlice.elems] at h
  | .nilSlice, h => simp [PSlice.elems] at h
  | .list [], h => simp [PSlice.elems] at h
  | .list (y :: ys), _ => simp [PSlice.copyWith]

theorem PSlice.copyWith_nil {α : Type} {f : α → α} {p : PSlice α} (h : p.elems = []) :
    p.copyWith f = .nil := by
  match p, h with
  | .nil, _ => rfl
  | .nilSlice, _ => rfl
  | .list [], _ => rfl
  | .list (y :: ys), h => simp [PSlice.elems] at h

/-- A choice of tools that can be written can still be written after the copy, if it has an entry. -/
theorem ToolsChoice.copy_writable {x : ToolsChoice} (hn : x.NonEmpty) (h : x.Writable) : x.copy.Writable := by
  obtain ⟨h1, h2, h3⟩ := h
  refine ⟨?_, PSlice.copyWith_all (fun _ => Component.copy_writable) h2,
    PSlice.copyWith_all (fun _ => Service.copy_writable) h3⟩
  rcases h1 with ⟨ht, hc, hs⟩ | ⟨ht, hcs⟩
  · rcases hn with hn | hn | hn
    · exact .inl ⟨PSlice.copyWith_ne_nil hn, by simp [ToolsChoice.copy, hc, PSlice.copyWith],
        by simp [ToolsChoice.copy, hs, PSlice.copyWith]⟩
    · simp [hc, PSlice.elems] at hn
    · simp [hs, PSlice.elems] at hn
  · refine .inr ⟨by simp [ToolsChoice.copy, ht, PSlice.copyWith], ?_⟩
    rcases hn with hn | hn | hn
    · simp [ht, PSlice.elems] at hn
    · exact .inl (PSlice.copyWith_ne_nil hn)
    · exact .inr (PSlice.copyWith_ne_nil hn)
'''
WHAND['Metadata'] = WHAND['Vulnerability'] = WHAND['BOM'] = None

def proofs():
    o = [PROOFHEAD]; w = o.append
    for n in ORDER:
        s = structs[n]
        if n == 'Pedigree': continue
        fs = s.fields
        if n in ('Component', 'Service'):
            N = n; C = n + 's'; 
            P = structs['Pedigree']
            own = sorted({l for f in fs for l in lem(f, 'eq') if not l.startswith((n + '.', 'Pedigree.'))})
            idm = sorted({l for f in fs for l in lem(f, 'idem') if not l.startswith((n + '.', 'Pedigree.'))})
            pown = sorted({l for f in P.fields for l in lem(f, 'eq') if not l.startswith('Component.')})
            pidm = sorted({l for f in P.fields for l in lem(f, 'idem') if not l.startswith('Component.')})
            gen = 'Option.map_eq_self_iff\', PSlice.copyWith_eq, PSlice.copyWith_id_eq'
            w(f'''theorem copy{n}List_eq (xs : List {n}) : copy{n}List xs = xs.map {n}.copy := by
  induction xs with
  | nil => rfl
  | cons x xs ih => simp [copy{n}List, ih]

theorem copy{C}_eq (p : PSlice {n}) : copy{C} p = p.copyWith {n}.copy := by
  match p with
  | .nil => simp [copy{C}, PSlice.copyWith]
  | .nilSlice => simp [copy{C}, PSlice.copyWith]
  | .list [] => simp [copy{C}, PSlice.copyWith]
  | .list (x :: xs) => simp [copy{C}, PSlice.copyWith, copy{n}List_eq]

theorem copyable{n}List_iff (xs : List {n}) : Copyable{n}List xs ↔ ∀ c ∈ xs, c.Copyable := by
  induction xs with
  | nil => simp [Copyable{n}List]
  | cons x xs ih => simp [Copyable{n}List, ih]

theorem copyable{C}_iff (p : PSlice {n}) : Copyable{C} p ↔ p.Filled {n}.Copyable := by
  match p with
  | .nil => simp [Copyable{C}, PSlice.Filled, PSlice.elems]
  | .nilSlice => simp [Copyable{C}, PSlice.Filled, PSlice.elems]
  | .list [] => simp [Copyable{C}, PSlice.Filled, PSlice.elems]
  | .list (x :: xs) => simp [Copyable{C}, PSlice.Filled, PSlice.elems, copyable{n}List_iff]

theorem PSlice.filled_congr_{n.lower()} {{p : PSlice {n}}} (h : ∀ c ∈ p.elems, (c.copy = c ↔ c.Copyable)) :
    (copy{C} p = p ↔ Copyable{C} p) := by
  rw [copy{C}_eq, copyable{C}_iff, PSlice.copyWith_eq]
  exact and_congr_right fun _ => and_congr_right fun _ => forall₂_congr h

theorem copy{C}_idem {{p : PSlice {n}}} (h : ∀ c ∈ p.elems, c.copy.copy = c.copy) :
    copy{C} (copy{C} p) = copy{C} p := by
  rw [copy{C}_eq, copy{C}_eq]
  match p, h with
  | .nil, _ => rfl
  | .nilSlice, _ => rfl
  | .list [], _ => rfl
  | .list (x :: xs), h =>
    have h1 := h x (by simp [PSlice.elems])
    have h2 : (xs.map {n}.copy).map {n}.copy = xs.map {n}.copy := by
      rw [List.map_map]
      exact List.map_congr_left fun c hc => h c (by simp [PSlice.elems, hc])
    simp only [PSlice.copyWith, h1, h2]
''')
            if n == 'Component':
                w(f'''theorem copyPedigree_eq (p : Pedigree Component) (h : ∀ c ∈ p.relatives, (c.copy = c ↔ c.Copyable)) :
    copyPedigree p = p ↔ CopyablePedigree p := by
  have h1 : (copyComponents p.ancestors = p.ancestors ↔ CopyableComponents p.ancestors) :=
    PSlice.filled_congr_component fun c hc => h c (by simp [Pedigree.relatives, hc])
  have h2 : (copyComponents p.descendants = p.descendants ↔ CopyableComponents p.descendants) :=
    PSlice.filled_congr_component fun c hc => h c (by simp [Pedigree.relatives, hc])
  have h3 : (copyComponents p.variants = p.variants ↔ CopyableComponents p.variants) :=
    PSlice.filled_congr_component fun c hc => h c (by simp [Pedigree.relatives, hc])
  cases p
  simp only at h1 h2 h3
  simp only [copyPedigree, CopyablePedigree, Pedigree.mk.injEq, h1, h2, h3, {', '.join([gen] + pown)}, id_eq, true_and, and_true]

theorem Component.copy_eq (x : Component) : x.copy = x ↔ x.Copyable := by
  induction x using Component.induct with
  | h c ih =>
    have h1 : (copyComponents c.components = c.components ↔ CopyableComponents c.components) :=
      PSlice.filled_congr_component fun d hd => ih d (by simp [Component.children, hd])
    have h2 : (copyPedigreeOpt c.pedigree = c.pedigree ↔ CopyablePedigreeOpt c.pedigree) := by
      cases hp : c.pedigree with
      | none => simp [copyPedigreeOpt, CopyablePedigreeOpt]
      | some p =>
        simp only [copyPedigreeOpt, CopyablePedigreeOpt, Option.some.injEq]
        exact copyPedigree_eq p fun d hd => ih d (by simp [Component.children, hp, hd])
    cases c
    simp only at h1 h2
    simp only [Component.copy, Component.Copyable, Component.mk.injEq, h1, h2, {', '.join([gen] + own)}, id_eq, true_and, and_true]

theorem copyPedigree_idem (p : Pedigree Component) (h : ∀ c ∈ p.relatives, c.copy.copy = c.copy) :
    copyPedigree (copyPedigree p) = copyPedigree p := by
  have h1 := copyComponents_idem (p := p.ancestors) fun c hc => h c (by simp [Pedigree.relatives, hc])
  have h2 := copyComponents_idem (p := p.descendants) fun c hc => h c (by simp [Pedigree.relatives, hc])
  have h3 := copyComponents_idem (p := p.variants) fun c hc => h c (by simp [Pedigree.relatives, hc])
  cases p
  simp only at h1 h2 h3
  simp only [copyPedigree, h1, h2, h3, {idemlist(pidm)}]

theorem Component.copy_idem (x : Component) : x.copy.copy = x.copy := by
  induction x using Component.induct with
  | h c ih =>
    have h1 := copyComponents_idem (p := c.components) fun d hd => ih d (by simp [Component.children, hd])
    have h2 : copyPedigreeOpt (copyPedigreeOpt c.pedigree) = copyPedigreeOpt c.pedigree := by
      cases hp : c.pedigree with
      | none => simp [copyPedigreeOpt]
      | some p =>
        simp only [copyPedigreeOpt, Option.some.injEq]
        exact copyPedigree_idem p fun d hd => ih d (by simp [Component.children, hp, hd])
    cases c
    simp only at h1 h2
    simp only [Component.copy, h1, h2, {idemlist(idm)}]
''')
                from gen_writable import cond as wcond
                # writable
                fl = []
                for f in fs:
                    if slice_elem(f.ty) == 'Component': fl.append((f, 'hc'))
                    elif f.ty == '*Pedigree': fl.append((f, 'hp'))
                    elif wcond(f, ''): fl.append((f, None))
                pats = ', '.join(f'h{i}' for i in range(len(fl)))
                terms = ', '.join(t or wterm(f, f'h{i}') for i, (f, t) in enumerate(fl))
                pf = [f for f in P.fields if slice_elem(f.ty) == 'Component' or wcond(f, '')]
                w(f'''theorem writableComponentList_iff' (xs : List Component) :
    WritableComponentList xs ↔ ∀ c ∈ xs, c.Writable := by
  induction xs with
  | nil => simp [WritableComponentList]
  | cons x xs ih => simp [WritableComponentList, ih]

theorem writableComponents_iff' (p : PSlice Component) : WritableComponents p ↔ ∀ c ∈ p.elems, c.Writable := by
  cases p <;> simp [WritableComponents, PSlice.elems, writableComponentList_iff']

theorem copyComponents_writable {{p : PSlice Component}} (hp : ∀ c ∈ p.elems, c.Writable → c.copy.Writable)
    (h : WritableComponents p) : WritableComponents (copyComponents p) := by
  rw [writableComponents_iff'] at h ⊢
  rw [copyComponents_eq]
  intro c hc
  obtain ⟨d, hd, rfl⟩ := PSlice.mem_copyWith hc
  exact hp d hd (h d hd)

theorem Component.copy_writable {{x : Component}} : x.Writable → x.copy.Writable := by
  induction x using Component.induct with
  | h c ih =>
    intro h
    have hc : WritableComponents c.components → WritableComponents (copyComponents c.components) :=
      copyComponents_writable fun d hd => ih d (by simp [Component.children, hd])
    have hp : WritablePedigreeOpt c.pedigree → WritablePedigreeOpt (copyPedigreeOpt c.pedigree) := by
      cases hp : c.pedigree with
      | none => simp [copyPedigreeOpt, WritablePedigreeOpt]
      | some p =>
        simp only [copyPedigreeOpt, WritablePedigreeOpt]
        have ih' : ∀ d ∈ p.relatives, d.Writable → d.copy.Writable :=
          fun d hd => ih d (by simp [Component.children, hp, hd])
        intro hw
        cases p
        simp only [copyPedigree, WritablePedigree] at hw ⊢
        obtain ⟨{', '.join(f'w{i}' for i in range(len(pf)))}⟩ := hw
        exact ⟨{pedterms(pf)}⟩
    cases c
    simp only at hc hp
    simp only [Component.copy, Component.Writable] at h ⊢
    obtain ⟨{pats}⟩ := h
    exact ⟨{', '.join(f'{t} h{i}' if t else wterm(f, f'h{i}') for i, (f, t) in enumerate(fl))}⟩
''')
            else:
                from gen_writable import cond as wcond
                fl = [(f, 'hc' if slice_elem(f.ty) == 'Service' else None) for f in fs if slice_elem(f.ty) == 'Service' or wcond(f, '')]
                pats = ', '.join(f'h{i}' for i in range(len(fl)))
                w(f'''theorem Service.copy_eq (x : Service) : x.copy = x ↔ x.Copyable := by
  induction x using Service.induct with
  | h c ih =>
    have h1 : (copyServices c.services = c.services ↔ CopyableServices c.services) :=
      PSlice.filled_congr_service fun d hd => ih d (by simp [Service.children, hd])
    cases c
    simp only at h1
    simp only [Service.copy, Service.Copyable, Service.mk.injEq, h1, {', '.join([gen] + own)}, id_eq, true_and, and_true]

theorem Service.copy_idem (x : Service) : x.copy.copy = x.copy := by
  induction x using Service.induct with
  | h c ih =>
    have h1 := copyServices_idem (p := c.services) fun d hd => ih d (by simp [Service.children, hd])
    cases c
    simp only at h1
    simp only [Service.copy, h1, {idemlist(idm)}]

theorem writableServiceList_iff' (xs : List Service) :
    WritableServiceList xs ↔ ∀ c ∈ xs, c.Writable := by
  induction xs with
  | nil => simp [WritableServiceList]
  | cons x xs ih => simp [WritableServiceList, ih]

theorem writableServices_iff' (p : PSlice Service) : WritableServices p ↔ ∀ c ∈ p.elems, c.Writable := by
  cases p <;> simp [WritableServices, PSlice.elems, writableServiceList_iff']

theorem Service.copy_writable {{x : Service}} : x.Writable → x.copy.Writable := by
  induction x using Service.induct with
  | h c ih =>
    intro h
    have hc : WritableServices c.services → WritableServices (copyServices c.services) := by
      rw [writableServices_iff', writableServices_iff', copyServices_eq]
      intro h d hd
      obtain ⟨e, he, rfl⟩ := PSlice.mem_copyWith hd
      exact ih e (by simp [Service.children, he]) (h e he)
    cases c
    simp only at hc
    simp only [Service.copy, Service.Writable] at h ⊢
    obtain ⟨{pats}⟩ := h
    exact ⟨{', '.join(f'{t} h{i}' if t else wterm(f, f'h{i}') for i, (f, t) in enumerate(fl))}⟩
''')
            continue
        own = sorted({l for f in fs for l in lem(f, 'eq')})
        idm = sorted({l for f in fs for l in lem(f, 'idem')})
        gen = ['Option.map_eq_self_iff\'', 'PSlice.copyWith_eq', 'PSlice.copyWith_id_eq']
        st = [l for l in idm if not l.startswith(('Gob', 'F32', 'F64'))]
        w(f'''theorem {n}.copy_eq (x : {n}) : x.copy = x ↔ x.Copyable := by
  cases x
  simp only [{', '.join([n + '.copy', n + '.Copyable', n + '.mk.injEq'] + gen + own + ['id_eq', 'true_and', 'and_true', 'and_self'])}]

theorem {n}.copy_idem (x : {n}) : x.copy.copy = x.copy := by
  simp only [{', '.join([n + '.copy', 'PSlice.copyWith_id_idem'] + [f"Option.map_idem' {l}" for l in st] + [f'PSlice.copyWith_idem {l}' for l in st] + idm)}]
''')
        if nt(n):
            from gen_writable import cond as wcond
            if n in WHAND:
                if WHAND[n]: w(WHAND[n])
                continue
            fl = [f for f in fs if wcond(f, 'x')]
            if len(fl) == 1:
                w(f'''theorem {n}.copy_writable {{x : {n}}} (h : x.Writable) : x.copy.Writable :=
  {wterm(fl[0], 'h')}
''')
            else:
                w(f'''theorem {n}.copy_writable {{x : {n}}} (h : x.Writable) : x.copy.Writable := by
  obtain ⟨{', '.join(f'h{i}' for i in range(len(fl)))}⟩ := h
  exact ⟨{', '.join(wterm(f, f'h{i}') for i, f in enumerate(fl))}⟩
''')
    w('end Verif')
    return '\n'.join(o) + '\n'

RHAND = {}
RHAND['CertificateState'] = '''theorem CertificateState.copy_regular {x : CertificateState} (h : x.Regular) : x.copy.Regular :=
  Option.map_all (fun _ h => h) h
'''
RHAND['CertificateExtension'] = '''theorem CertificateExtension.copy_regular {x : CertificateExtension} (h : x.Regular) : x.copy.Regular :=
  Option.map_all (fun _ h => h) h
'''
RHAND['PatentChoice'] = '''theorem PatentChoice.copy_regular {x : PatentChoice} (h : x.Regular) : x.copy.Regular :=
  Option.map_all (fun _ h => h) h
'''

def rterm(f, h):
    t = f.ty; s = slice_elem(t)
    if s is not None:
        if s == 'int': return f'PSlice.copyWith_all (fun _ h => h) {h}'
        return f'PSlice.copyWith_all (fun _ => {s}.copy_regular) {h}'
    b = t.lstrip('*')
    if t.startswith('*'):
        if b == 'int': return f'fun x hx => {h} x (Gob.int_mem hx)'
        return f'Option.map_all (fun _ => {b}.copy_regular) {h}'
    if b == 'int': return h
    return f'{b}.copy_regular {h}'

def regular():
    from gen_canon import rg, rcond
    from gen_json import HAND
    o = ['''import Verif.Proofs.Gob
import Verif.Json.CanonicalLaws

/-!
# The deep copy of a regular value is regular

GENERATED by `tools/gen_gob.py`; do not edit by hand.
-/

namespace Verif

theorem Gob.int_mem {o : Option Int} {x : Int} (h : x ∈ Gob.int o) : x ∈ o := by
  cases o with
  | none => exact h
  | some s =>
    by_cases hs : s = 0
    · simp [Gob.int, hs] at h
    · simpa [Gob.int, hs] using h
''']; w = o.append
    P = structs['Pedigree']
    for n in ORDER:
        s = structs[n]; fs = s.fields
        if not rg(n) or n == 'Pedigree': continue
        if n in RHAND: w(RHAND[n]); continue
        if n == 'Component':
            fl = [(f, {'components': 'hc', 'pedigree': 'hp'}.get(f.name)) for f in fs if f.name in ('components', 'pedigree') or rcond(f, '')]
            pf = [f for f in P.fields if slice_elem(f.ty) == 'Component' or rcond(f, '')]
            w(f'''theorem copyComponents_regular {{p : PSlice Component}} (hp : ∀ c ∈ p.elems, c.Regular → c.copy.Regular)
    (h : RegularComponents p) : RegularComponents (copyComponents p) := by
  rw [regularComponents_iff] at h ⊢
  rw [copyComponents_eq]
  intro c hc
  obtain ⟨d, hd, rfl⟩ := PSlice.mem_copyWith hc
  exact hp d hd (h d hd)

theorem Component.copy_regular {{x : Component}} : x.Regular → x.copy.Regular := by
  induction x using Component.induct with
  | h c ih =>
    intro h
    have hc : RegularComponents c.components → RegularComponents (copyComponents c.components) :=
      copyComponents_regular fun d hd => ih d (by simp [Component.children, hd])
    have hp : RegularPedigreeOpt c.pedigree → RegularPedigreeOpt (copyPedigreeOpt c.pedigree) := by
      cases hp : c.pedigree with
      | none => simp [copyPedigreeOpt, RegularPedigreeOpt]
      | some p =>
        simp only [copyPedigreeOpt, RegularPedigreeOpt]
        have ih' : ∀ d ∈ p.relatives, d.Regular → d.copy.Regular :=
          fun d hd => ih d (by simp [Component.children, hp, hd])
        intro hw
        cases p
        simp only [copyPedigree, RegularPedigree] at hw ⊢
        obtain ⟨{', '.join(f'w{i}' for i in range(len(pf)))}⟩ := hw
        exact ⟨{pedterms(pf).replace('writable', 'regular')}⟩
    cases c
    simp only at hc hp
    simp only [Component.copy, Component.Regular] at h ⊢
    obtain ⟨{', '.join(f'h{i}' for i in range(len(fl)))}⟩ := h
    exact ⟨{', '.join(f'{t} h{i}' if t else rterm(f, f'h{i}') for i, (f, t) in enumerate(fl))}⟩
'''); continue
        if n == 'Service':
            fl = [(f, {'services': 'hc'}.get(f.name)) for f in fs if f.name == 'services' or rcond(f, '')]
            assert len(fl) == 1
            w(f'''theorem Service.copy_regular {{x : Service}} : x.Regular → x.copy.Regular := by
  induction x using Service.induct with
  | h c ih =>
    intro h
    have hc : RegularServices c.services → RegularServices (copyServices c.services) := by
      rw [regularServices_iff, regularServices_iff, copyServices_eq]
      intro h d hd
      obtain ⟨e, he, rfl⟩ := PSlice.mem_copyWith hd
      exact ih e (by simp [Service.children, he]) (h e he)
    cases c
    simp only at hc
    simp only [Service.copy, Service.Regular] at h ⊢
    exact hc h
'''); continue
        fl = [f for f in fs if rcond(f, 'x', {}, n in HAND)]
        if len(fl) == 1:
            w(f'''theorem {n}.copy_regular {{x : {n}}} (h : x.Regular) : x.copy.Regular :=
  {rterm(fl[0], 'h')}
''')
        else:
            w(f'''theorem {n}.copy_regular {{x : {n}}} (h : x.Regular) : x.copy.Regular := by
  obtain ⟨{', '.join(f'h{i}' for i in range(len(fl)))}⟩ := h
  exact ⟨{', '.join(rterm(f, f'h{i}') for i, f in enumerate(fl))}⟩
''')
    w('end Verif')
    return '\n'.join(o) + '\n'

if __name__ == '__main__':
    open('/verif/lean/Verif/Proofs/GobRegular.lean', 'w').write(regular())
    open('/verif/lean/Verif/Model/Gob.lean', 'w').write(model())
    open('/verif/lean/Verif/Spec/Copyable.lean', 'w').write(spec())
    open('/verif/lean/Verif/Proofs/Gob.lean', 'w').write(proofs())
