#!/usr/bin/env python3
"""Generates lean/Verif/Spec/Plain.lean (which values survive a JSON round trip, stated without the
codecs) and lean/Verif/Json/PlainLaws.lean (that this is what the codecs do)."""
import os, sys
sys.path.insert(0, os.path.dirname(__file__))
from gostructs import structs, named
from gen_types import ORDER, lty, zero
from gen_json import cname, HAND, IKE

def slice_elem(t):
    if t == '*Licenses': return 'LicenseChoice'
    if t == '*EnvironmentVariables': return 'EnvironmentVariableChoice'
    if t.startswith('*[]'): return t[3:]
    return None

def scalar(t): return t in ('string', 'bool', 'float32', 'float64', 'BOMReference') or t in named

TRIV = {}
def trivial(n):
    """no field of the struct has a condition"""
    if n not in TRIV:
        TRIV[n] = False
        TRIV[n] = n not in HAND and n not in IKE and all(cond(f, 'x') is None for f in structs[n].fields) and n != 'BOM'
    return TRIV[n]

def elem(t):
    """predicate on a value of this type or None"""
    if t == 'int': return 'InInt64'
    if t == 'SpecVersion': return None
    if scalar(t): return None
    return f'{t}.Plain'

def cond(f, x, rec=None):
    t = f.ty; v = f'{x}.{f.name}' if x else f.name
    if f.json == '-': return f'{v} = {zero(t)}'
    if t == 'SpecVersion': return f'(0 ≤ {v} ∧ {v} ≤ 8)'
    s = slice_elem(t)
    if s is not None:
        p = elem(s)
        return f'{v} ≠ .nilSlice' if p is None else f'{v}.Each {p}'
    if t.startswith('*'):
        p = elem(t[1:])
        return None if p is None else f'(∀ y ∈ {v}, {p} y)'
    p = elem(t)
    return None if p is None else f'{p} {v}'

CH = {}
CH['EnvironmentVariableChoice'] = '''/-- Either a property that is not empty, or a string (or nothing). -/
def EnvironmentVariableChoice.Plain (x : EnvironmentVariableChoice) : Prop :=
  x.property = none ∨ (∃ p, x.property = some p ∧ ¬ (p.name = "" ∧ p.value = "")) ∧ x.value = ""
'''
CH['MLDatasetChoice'] = '''/-- Either a reference, or a component data that is not empty (or nothing). -/
def MLDatasetChoice.Plain (x : MLDatasetChoice) : Prop :=
  (x.ref = "" ∨ x.componentData = none) ∧ ∀ d ∈ x.componentData, d.Plain ∧ d ≠ {}
'''
CH['ToolsChoice'] = '''/-- Either the legacy list of tools, or lists of components and services. -/
def ToolsChoice.Plain (x : ToolsChoice) : Prop :=
  (x.tools = .nil ∨ x.components = .nil ∧ x.services = .nil) ∧ x.tools.Each Tool.Plain ∧
    x.components.Each Component.Plain ∧ x.services.Each Service.Plain
'''
CH['EvidenceIdentityChoice'] = '''/-- Either one identity or a list of identities. -/
def EvidenceIdentityChoice.Plain (x : EvidenceIdentityChoice) : Prop :=
  (∃ i, i.Plain ∧ x = { identity := some i }) ∨
  (∃ ids : List EvidenceIdentity, (∀ i ∈ ids, i.Plain) ∧ x = { identities := .list ids })
'''
CH['CertificateState'] = '''/-- Either a predefined state that is not the empty string, or a custom one. -/
def CertificateState.Plain (x : CertificateState) : Prop :=
  (∃ p, p.Plain ∧ p.state ≠ "" ∧ x = { predefined := some p }) ∨ (∃ q, q.Plain ∧ x = { custom := some q })
'''
CH['CertificateExtension'] = '''/-- Either a common extension with a name, or a custom one. -/
def CertificateExtension.Plain (x : CertificateExtension) : Prop :=
  (∃ p, p.Plain ∧ p.name ≠ "" ∧ x = { common := some p }) ∨ (∃ q, q.Plain ∧ x = { custom := some q })
'''
CH['PatentChoice'] = '''/-- Either a patent, or a patent family with an identifier. -/
def PatentChoice.Plain (x : PatentChoice) : Prop :=
  (∃ p, p.Plain ∧ x = { patent := some p }) ∨
  (∃ q, q.Plain ∧ q.familyID ≠ "" ∧ x = { patentFamily := some q })
'''
CH['AsserterChoice'] = '''/-- An organization, an individual or a reference (or nothing). -/
def AsserterChoice.Plain (x : AsserterChoice) : Prop :=
  (∃ o, o.Plain ∧ x = { organization := some o }) ∨ (∃ i, i.Plain ∧ x = { individual := some i }) ∨
    (∃ r, x = { bomRef := some r }) ∨ x = {}
'''

def conj(cs): return ' ∧\n  '.join(cs) if cs else 'True'

def spec():
    o = []; w = o.append
    w('''import Verif.Model.Types

/-!
# The values that JSON can represent

GENERATED by `tools/gen_plain.py` from the struct declarations of `/repo/cyclonedx.go`; do not edit by
hand.

`T.Plain x` says that `x` uses only what the JSON format of the library can tell apart: no pointer to a nil
slice anywhere, a version that has a name or none, choice types hold one alternative, the fields that are not part of the JSON format
(tag `json:"-"`) are unset, and integers are Go integers.  It is stated on the values alone, without
reference to how they are written or read.
-/

namespace Verif

/-- Not a pointer to a nil slice, and every element satisfies `P`. -/
def PSlice.Each {α : Type} (P : α → Prop) (p : PSlice α) : Prop := p ≠ .nilSlice ∧ ∀ x ∈ p.elems, P x
''')
    for n in ORDER:
        s = structs[n]
        if n in CH: w(CH[n]); continue
        if n in IKE:
            own = [c for f in s.fields if f.name != 'bomRef' for c in [cond(f, 'x')] if c]
            b = ' ∧ '.join(['x.bomRef.val = ""'] + own)
            w(f'''/-- Either a reference alone, or everything but a reference (cyclonedx.go:{s.a}-{s.b}). -/
def {n}.Plain (x : {n}) : Prop :=
  x = {{ bomRef := x.bomRef }} ∨ {b}
'''); continue
        if n == 'Pedigree':
            global PED
            cs = []
            for f in s.fields:
                if slice_elem(f.ty) == 'Component':
                    cs.append(f'PlainComponents {f.name}')
                else:
                    c = cond(f, '')
                    if c: cs.append(c)
            PED = cs
            continue
        if n == 'Component':
            cs = []
            for f in s.fields:
                if slice_elem(f.ty) == 'Component': cs.append('PlainComponents components')
                elif f.ty == '*Pedigree': cs.append('PlainPedigreeOpt pedigree')
                else:
                    c = cond(f, '')
                    if c: cs.append(c)
            body = ' ∧\n    '.join(cs); pb = ' ∧\n    '.join(PED)
            used = body
            import re
            pat = ' '.join(f.name if re.search(r'\b' + f.name + r'\b', body) else '_' for f in s.fields)
            ppat = ' '.join(f.name if re.search(r'\b' + f.name + r'\b', pb) else '_' for f in structs['Pedigree'].fields)
            w(f'''mutual
/-- cyclonedx.go:{s.a}-{s.b} -/
def Component.Plain : Component → Prop
  | .mk {pat} =>
    {body}
/-- A list of components, at any depth. -/
def PlainComponents : PSlice Component → Prop
  | .nil => True
  | .nilSlice => False
  | .list xs => PlainComponentList xs
/-- A list of components, at any depth. -/
def PlainComponentList : List Component → Prop
  | [] => True
  | c :: cs => c.Plain ∧ PlainComponentList cs
/-- An optional pedigree. -/
def PlainPedigreeOpt : Option (Pedigree Component) → Prop
  | none => True
  | some p => PlainPedigree p
/-- cyclonedx.go:{structs["Pedigree"].a}-{structs["Pedigree"].b} -/
def PlainPedigree : Pedigree Component → Prop
  | .mk {ppat} =>
    {pb}
end
'''); continue
        if n == 'Service':
            import re
            cs = []
            for f in s.fields:
                if slice_elem(f.ty) == 'Service': cs.append('PlainServices services')
                else:
                    c = cond(f, '')
                    if c: cs.append(c)
            body = ' ∧\n    '.join(cs)
            pat = ' '.join(f.name if re.search(r'\b' + f.name + r'\b', body) else '_' for f in s.fields)
            w(f'''mutual
/-- cyclonedx.go:{s.a}-{s.b} -/
def Service.Plain : Service → Prop
  | .mk {pat} =>
    {body}
/-- A list of services, at any depth. -/
def PlainServices : PSlice Service → Prop
  | .nil => True
  | .nilSlice => False
  | .list xs => PlainServiceList xs
/-- A list of services, at any depth. -/
def PlainServiceList : List Service → Prop
  | [] => True
  | c :: cs => c.Plain ∧ PlainServiceList cs
end
'''); continue
        cs = [c for f in s.fields for c in [cond(f, 'x')] if c]
        x = 'x' if cs else '_'
        w(f'''/-- cyclonedx.go:{s.a}-{s.b} -/
def {n}.Plain ({x} : {n}) : Prop :=
  {conj(cs)}
''')
    w('end Verif')
    return '\n'.join(o) + '\n'

LAWHEAD = '''import Verif.Spec.Plain
import Verif.Json.StructLaws

/-!
# What survives a JSON round trip

GENERATED by `tools/gen_plain.py`; do not edit by hand.  `J.Ok c x`: the codec `c` reads `x` back
unchanged.  For every type this is `T.Plain`.
-/

namespace Verif

set_option linter.unusedSectionVars false
set_option linter.unusedSimpArgs false

variable [FloatIO]

/-- The value is read back unchanged. -/
def J.Ok {α : Type} (c : JCodec α) (a : α) : Prop := c.norm a = a ∧ c.good a

/-- The same for the fields of a struct. -/
def J.OkF {β : Type} (F : JFields β) (b : β) : Prop := F.norm b = b ∧ F.good b

/-- No value that is read back unchanged is written as `null`. -/
class JNN {α : Type} (c : JCodec α) : Prop where
  nn : ∀ a, J.Ok c a → c.nullish a = false

theorem ok_string (s : String) : J.Ok JCodec.string s ↔ True := by simp [J.Ok, JCodec.string]
theorem ok_bool (s : Bool) : J.Ok JCodec.bool s ↔ True := by simp [J.Ok, JCodec.bool]
theorem ok_int (i : Int) : J.Ok JCodec.int i ↔ InInt64 i := by simp [J.Ok, JCodec.int]
theorem ok_f32 (s : F32) : J.Ok JCodec.f32 s ↔ True := by simp [J.Ok, JCodec.f32]
theorem ok_f64 (s : F64) : J.Ok JCodec.f64 s ↔ True := by simp [J.Ok, JCodec.f64]
theorem ok_bomReference (s : BOMReference) : J.Ok J.bomReference s ↔ True := by simp [J.Ok, J.bomReference]
theorem ok_specVersion (v : Int) : J.Ok J.specVersionStrict v ↔ (0 ≤ v ∧ v ≤ 8) := by
  simp [J.Ok, J.specVersionStrict, J.specVersion, SpecVersion1_7]

instance : JNN JCodec.string := ⟨fun _ _ => rfl⟩
instance : JNN JCodec.bool := ⟨fun _ _ => rfl⟩
instance : JNN JCodec.int := ⟨fun _ _ => rfl⟩
instance : JNN JCodec.f32 := ⟨fun _ _ => rfl⟩
instance : JNN JCodec.f64 := ⟨fun _ _ => rfl⟩
instance : JNN J.bomReference := ⟨fun _ _ => rfl⟩

theorem ok_option {α : Type} (c : JCodec α) [N : JNN c] (o : Option α) :
    J.Ok (JCodec.option c) o ↔ ∀ a ∈ o, J.Ok c a := by
  cases o with
  | none => simp [J.Ok, JCodec.option]
  | some a =>
    simp only [Option.mem_some_iff, forall_eq']
    constructor
    · rintro ⟨h1, h2⟩
      simp only [JCodec.option] at h1 h2
      by_cases hn : c.nullish a = true
      · simp [hn] at h1
      · simp [hn] at h1; exact ⟨h1, h2⟩
    · intro h
      exact ⟨by simp [JCodec.option, N.nn a h, h.1], h.2⟩

theorem map_eq_self {α : Type} {f : α → α} : ∀ {xs : List α}, xs.map f = xs ↔ ∀ x ∈ xs, f x = x
  | [] => by simp
  | x :: xs => by simp [map_eq_self (xs := xs)]

theorem ok_pslice {α : Type} (c : JCodec α) (p : PSlice α) :
    J.Ok (JCodec.pslice c) p ↔ p.Each (J.Ok c) := by
  cases p with
  | nil => simp [J.Ok, JCodec.pslice, PSlice.Each, PSlice.elems]
  | nilSlice => simp [J.Ok, JCodec.pslice, PSlice.Each, PSlice.elems]
  | list xs =>
    simp only [J.Ok, JCodec.pslice, PSlice.Each, PSlice.elems, PSlice.list.injEq, ne_eq, reduceCtorEq,
      not_false_eq_true, true_and]
    constructor
    · rintro ⟨h1, h2⟩ x hx
      exact ⟨map_eq_self.1 h1 x hx, h2 x hx⟩
    · intro h
      exact ⟨map_eq_self.2 fun x hx => (h x hx).1, fun x hx => (h x hx).2⟩

theorem PSlice.each_congr {α : Type} {P Q : α → Prop} (h : ∀ a, P a ↔ Q a) (p : PSlice α) :
    p.Each P ↔ p.Each Q := by simp [PSlice.Each, h]

theorem PSlice.each_true {α : Type} {P : α → Prop} (h : ∀ a, P a ↔ True) (p : PSlice α) :
    p.Each P ↔ p ≠ .nilSlice := by simp [PSlice.Each, h]

theorem okF_nil (b : Unit) : J.OkF .nil b ↔ True := by simp [J.OkF, JFields.norm, JFields.good]
theorem okF_skip {α β : Type} (z : α) (F : JFields β) (b : α × β) :
    J.OkF (.skip z F) b ↔ b.1 = z ∧ J.OkF F b.2 := by
  obtain ⟨x, y⟩ := b
  simp only [J.OkF, JFields.norm, JFields.good, Prod.mk.injEq]
  exact ⟨fun h => ⟨h.1.1.symm, h.1.2, h.2⟩, fun h => ⟨⟨h.1.symm, h.2.1⟩, h.2.2⟩⟩
theorem okF_field {α β : Type} (n : String) (oe : Bool) (c : JCodec α) (F : JFields β) (b : α × β) :
    J.OkF (.field n oe c F) b ↔ J.Ok c b.1 ∧ J.OkF F b.2 := by
  obtain ⟨x, y⟩ := b
  simp only [J.OkF, J.Ok, JFields.norm, JFields.good, Prod.mk.injEq]
  exact ⟨fun h => ⟨⟨h.1.1, h.2.1⟩, h.1.2, h.2.2⟩, fun h => ⟨⟨h.1.1, h.2.1⟩, h.1.2, h.2.2⟩⟩

theorem ok_struct {σ β : Type} (F : JFields β) (toP : σ → β) (ofP : β → σ) (h1 : ∀ s, ofP (toP s) = s)
    (h2 : ∀ p, toP (ofP p) = p) (s : σ) : J.Ok (JCodec.struct F toP ofP) s ↔ J.OkF F (toP s) := by
  simp only [J.Ok, J.OkF, JCodec.struct]
  refine and_congr_left fun _ => ⟨fun h => ?_, fun h => ?_⟩
  · rw [← h2 (F.norm (toP s)), h]
  · rw [h, h1]

theorem SameAt.ok {α : Type} {C D : JCodec α} {a : α} (h : SameAt C D a) : J.Ok C a ↔ J.Ok D a := by
  simp only [J.Ok, h.norm, h.good]
'''

def okname(t):
    if t == 'string' or (t in named and t not in ('BOMReference', 'SpecVersion')): return 'ok_string'
    if t == 'bool': return 'ok_bool'
    if t == 'int': return 'ok_int'
    if t == 'float32': return 'ok_f32'
    if t == 'float64': return 'ok_f64'
    if t == 'BOMReference': return 'ok_bomReference'
    if t == 'SpecVersion': return 'ok_specVersion'
    return 'ok_' + cname(t)

def fieldproof(f, over={}):
    """a term proving J.Ok c v ↔ cond (or True)"""
    if f.name in over: return over[f.name]
    t = f.ty
    s = slice_elem(t)
    if s is not None:
        k = okname(s)
        if elem(s) is None: return f'((ok_pslice _ _).trans (PSlice.each_true {k} _))'
        return f'((ok_pslice _ _).trans (PSlice.each_congr {k} _))'
    if t.startswith('*'):
        k = okname(t[1:])
        if elem(t[1:]) is None: return f'((ok_option _ _).trans (by simp [{k}]))'
        return f'((ok_option _ _).trans (forall₂_congr fun y _ => {k} y))'
    return f'({okname(t)} _)'

def fieldchain(fs, over={}):
    """proof of J.OkF (fields) b ↔ conj"""
    if not fs: return ['(okF_nil _)']
    return None

def laws():
    o = [LAWHEAD]; w = o.append
    for n in ORDER:
        s = structs[n]; k = cname(n)
        if n in HAND:
            w(HLAW[n]); continue
        over = {}
        rec = n in ('Component', 'Pedigree', 'Service')
        # conj of all fields in order; simp removes the trivial ones
        steps = []
        for f in s.fields:
            if f.json == '-': steps.append('okF_skip')
        def body(over, tail):
            lines = []
            for f in s.fields:
                if f.json == '-':
                    lines.append('  refine (okF_skip _ _ _).trans ?_')
                    triv = False
                else:
                    lines.append('  refine (okF_field _ _ _ _ _).trans ?_')
            return lines
        pf = []
        for f in s.fields:
            if f.json == '-': continue
            pf.append(fieldproof(f, over))
        if n == 'BOM':
            pass
        if rec:
            continue_rec = True
        if n in IKE:
            lem = ', '.join(sorted({okname(f.ty.lstrip('*')) for f in s.fields if f.name != 'bomRef'}))
            w(f'''theorem ok_{k}Struct (x : {n}) :
    J.Ok (JCodec.struct J.{k}Fields {n}.toP {n}.ofP) x ↔ x.bomRef = ⟨""⟩{''.join(' ∧ ' + c for f in s.fields if f.name != 'bomRef' for c in [cond(f, 'x')] if c)} := by
  rw [ok_struct J.{k}Fields _ _ (fun _ => rfl) (fun _ => rfl)]
  simp only [J.{k}Fields, okF_field, okF_skip, okF_nil, {n}.toP, ok_option, {lem}, and_true, true_and, implies_true]

instance : JNN J.{k} := ⟨fun _ _ => rfl⟩

theorem ok_{k} (x : {n}) : J.Ok J.{k} x ↔ x.Plain := by
  have h := ok_{k}Struct x
  by_cases hb : x.bomRef.val = ""
  · have hb' : x.bomRef = ⟨""⟩ := by cases hx : x.bomRef; simp_all
    have hs : J.Ok J.{k} x ↔ J.Ok (JCodec.struct J.{k}Fields {n}.toP {n}.ofP) x := by
      simp [J.Ok, J.{k}, J.ikev2, hb]
    rw [hs, h, {n}.Plain]
    constructor
    · intro hh; right; simp_all
    · rintro (hh | hh)
      · rw [hh]; simp [hb', InInt64]
      · simp_all
  · have hs : J.Ok J.{k} x ↔ {n}.mk x.bomRef {' '.join(zero(f.ty) for f in s.fields[1:])} = x := by
      simp [J.Ok, J.{k}, J.ikev2, hb]; rfl
    rw [hs, {n}.Plain]
    constructor
    · intro hh; left; exact hh.symm
    · rintro (hh | hh)
      · exact hh.symm
      · exact absurd (by simp_all) hb
'''); continue
        lems = []
        for f in s.fields:
            if f.json == '-': continue
            b = slice_elem(f.ty) or f.ty.lstrip('*')
            if rec and b in ('Component', 'Pedigree', 'Service') and (n, b) not in (('Service','Component'),): continue
            lems.append(okname(b))
        lems = ', '.join(sorted(set(lems)))
        if n == 'Pedigree':
            w(f'''theorem ok_pedigreeWith (C : JCodec Component) (x : Pedigree Component)
    (h1 : x.ancestors.Each (J.Ok C) ↔ PlainComponents x.ancestors)
    (h2 : x.descendants.Each (J.Ok C) ↔ PlainComponents x.descendants)
    (h3 : x.variants.Each (J.Ok C) ↔ PlainComponents x.variants) :
    J.Ok (J.pedigree C) x ↔ PlainPedigree x := by
  rw [J.pedigree, ok_struct (J.pedigreeFields C) _ _ (fun _ => rfl) (fun _ => rfl)]
  simp only [J.pedigreeFields, okF_field, okF_skip, okF_nil, Pedigree.toP, ok_option, ok_pslice, h1, h2, h3,
    PSlice.each_true ok_string, PSlice.each_true ok_bomReference, {lems}, and_true, true_and, implies_true]
  cases x; exact Iff.rfl

instance (C : JCodec Component) : JNN (J.pedigree C) := ⟨fun _ _ => rfl⟩
'''.replace('''  cases x; exact Iff.rfl''', '''  cases x; simp only [PlainPedigree, PSlice.each_congr ok_commit, PSlice.each_congr ok_patch]'''))
            continue
        if n == 'Component':
            w(f'''theorem plainComponentList_iff (xs : List Component) :
    PlainComponentList xs ↔ ∀ c ∈ xs, c.Plain := by
  induction xs with
  | nil => simp [PlainComponentList]
  | cons x xs ih => simp [PlainComponentList, ih]

theorem plainComponents_iff (p : PSlice Component) : PlainComponents p ↔ p.Each Component.Plain := by
  cases p <;> simp [PlainComponents, PSlice.Each, PSlice.elems, plainComponentList_iff]

theorem ok_componentWith (C : JCodec Component) (x : Component)
    (h1 : x.components.Each (J.Ok C) ↔ PlainComponents x.components)
    (h2 : ∀ p ∈ x.pedigree, (J.Ok (J.pedigree C) p ↔ PlainPedigree p)) :
    J.Ok (J.componentWith C) x ↔ x.Plain := by
  have h3 : (∀ p ∈ x.pedigree, J.Ok (J.pedigree C) p) ↔ PlainPedigreeOpt x.pedigree := by
    cases hp : x.pedigree with
    | none => simp [PlainPedigreeOpt]
    | some p => simpa [PlainPedigreeOpt] using h2 p hp
  rw [J.componentWith, ok_struct (J.componentFields C) _ _ (fun c => by cases c; rfl) (fun _ => rfl)]
  simp only [J.componentFields, okF_field, okF_skip, okF_nil, Component.toP, ok_option, ok_pslice, h1, h3,
    PSlice.each_true ok_string, PSlice.each_true ok_bomReference, {lems}, and_true, true_and, implies_true]
  cases x; simp only [Component.Plain, {', '.join(sorted({'PSlice.each_congr ' + okname(slice_elem(f.ty)) for f in s.fields if slice_elem(f.ty) and elem(slice_elem(f.ty)) and slice_elem(f.ty) != 'Component'}))}]

instance : JNN J.component := ⟨fun _ _ => rfl⟩

theorem ok_component (x : Component) : J.Ok J.component x ↔ x.Plain := by
  suffices H : ∀ n (x : Component), x.height ≤ n → (J.Ok J.component x ↔ x.Plain) from
    H x.height x (Nat.le_refl _)
  intro n
  induction n with
  | zero => intro x h; rw [Component.height_eq] at h; omega
  | succ n ih =>
    intro x h
    rw [(component_sameAt_self x).ok]
    rw [Component.height_eq] at h
    have hm : max (heightComponents x.components) (heightPedigreeOpt x.pedigree) ≤ n := by omega
    rw [Nat.max_le] at hm
    have hl : ∀ p : PSlice Component, heightComponents p ≤ n →
        (p.Each (J.Ok J.component) ↔ PlainComponents p) := by
      intro p hp
      rw [heightComponents_le] at hp
      rw [plainComponents_iff]
      exact and_congr_right fun _ => forall₂_congr fun c hc => ih c (hp c hc)
    refine ok_componentWith _ x (hl _ hm.1) ?_
    intro p hp
    have hp : x.pedigree = some p := hp
    have hm := hm.2
    simp only [hp, heightPedigreeOpt, heightPedigree_eq, Nat.max_le] at hm
    exact ok_pedigreeWith _ p (hl _ hm.1) (hl _ hm.2.1) (hl _ hm.2.2)
'''); continue
        if n == 'Service':
            w(f'''theorem plainServiceList_iff (xs : List Service) :
    PlainServiceList xs ↔ ∀ c ∈ xs, c.Plain := by
  induction xs with
  | nil => simp [PlainServiceList]
  | cons x xs ih => simp [PlainServiceList, ih]

theorem plainServices_iff (p : PSlice Service) : PlainServices p ↔ p.Each Service.Plain := by
  cases p <;> simp [PlainServices, PSlice.Each, PSlice.elems, plainServiceList_iff]

theorem ok_serviceWith (C : JCodec Service) (x : Service)
    (h1 : x.services.Each (J.Ok C) ↔ PlainServices x.services) :
    J.Ok (J.serviceWith C) x ↔ x.Plain := by
  rw [J.serviceWith, ok_struct (J.serviceFields C) _ _ (fun c => by cases c; rfl) (fun _ => rfl)]
  simp only [J.serviceFields, okF_field, okF_skip, okF_nil, Service.toP, ok_option, ok_pslice, h1,
    PSlice.each_true ok_string, PSlice.each_true ok_bomReference, {lems}, and_true, true_and, implies_true]
  cases x; simp only [Service.Plain, {', '.join(sorted({'PSlice.each_congr ' + okname(slice_elem(f.ty)) for f in s.fields if slice_elem(f.ty) and elem(slice_elem(f.ty)) and slice_elem(f.ty) != 'Service'}))}]

instance : JNN J.service := ⟨fun _ _ => rfl⟩

theorem ok_service (x : Service) : J.Ok J.service x ↔ x.Plain := by
  suffices H : ∀ n (x : Service), x.height ≤ n → (J.Ok J.service x ↔ x.Plain) from
    H x.height x (Nat.le_refl _)
  intro n
  induction n with
  | zero => intro x h; rw [Service.height_eq] at h; omega
  | succ n ih =>
    intro x h
    rw [(service_sameAt_self x).ok]
    rw [Service.height_eq] at h
    have hm : heightServices x.services ≤ n := by omega
    refine ok_serviceWith _ x ?_
    rw [heightServices_le] at hm
    rw [plainServices_iff]
    exact and_congr_right fun _ => forall₂_congr fun c hc => ih c (hm c hc)
'''); continue
        each = sorted({'PSlice.each_congr ' + okname(slice_elem(f.ty)) for f in s.fields if slice_elem(f.ty) and elem(slice_elem(f.ty))})
        T = {'License': 'J.licenseAlias', 'BOM': 'J.bomWith J.specVersionStrict'}.get(n, f'J.{k}')
        F = '(J.bomFields J.specVersionStrict)' if n == 'BOM' else f'J.{k}Fields'
        Fn = 'J.bomFields' if n == 'BOM' else F
        st = ('show J.Ok J.licenseAlias x ↔ _\n  ' if n == 'License' else '')
        un = 'J.bomWith' if n == 'BOM' else T
        Tc = '(J.bomWith J.specVersionStrict)' if n == 'BOM' else f'J.{k}'
        w(f'''theorem ok_{k} (x : {n}) : J.Ok {Tc} x ↔ x.Plain := by
  {st}rw [{un}, ok_struct {F} _ _ (fun _ => rfl) (fun _ => rfl)]
  simp only [{', '.join([Fn, 'okF_field, okF_skip, okF_nil', n + '.toP', n + '.Plain', 'ok_option, ok_pslice', 'PSlice.each_true ok_string', 'PSlice.each_true ok_bomReference'] + each + ([lems] if lems else []) + ['and_true, true_and, implies_true'])}]

instance : JNN {Tc} := ⟨fun _ _ => rfl⟩
''')
    w('end Verif')
    return '\n'.join(o) + '\n'

HLAW = {}
HLAW['EnvironmentVariableChoice'] = '''theorem ok_environmentVariableChoice (x : EnvironmentVariableChoice) :
    J.Ok J.environmentVariableChoice x ↔ x.Plain := by
  obtain ⟨p, v⟩ := x
  cases p with
  | none => simp [J.Ok, J.environmentVariableChoice, EnvironmentVariableChoice.Plain]
  | some p =>
    have hv : "" = v ↔ v = "" := eq_comm
    by_cases hz : p.name = "" ∧ p.value = ""
    · simp [J.Ok, J.environmentVariableChoice, EnvironmentVariableChoice.Plain, Property.isZero, hz]
    · have hz' : p.isZero = false := by simpa [Property.isZero] using hz
      simp only [J.Ok, J.environmentVariableChoice, EnvironmentVariableChoice.Plain, hz']
      simp [hz, hv]
      exact fun _ h1 h2 => hz ⟨h1, h2⟩

instance : JNN J.environmentVariableChoice := ⟨fun _ _ => rfl⟩
'''
HLAW['MLDatasetChoice'] = '''theorem ok_mlDatasetChoice (x : MLDatasetChoice) : J.Ok J.mlDatasetChoice x ↔ x.Plain := by
  obtain ⟨r, d⟩ := x
  by_cases hr : r = ""
  · cases d with
    | none => simp [J.Ok, J.mlDatasetChoice, MLDatasetChoice.Plain, hr]
    | some d =>
      have h := ok_componentData d
      simp only [J.Ok] at h
      by_cases hz : (J.componentData.norm d).isZero = true
      · have hz' := (ComponentData.isZero_iff _).1 hz
        simp only [J.Ok, J.mlDatasetChoice, MLDatasetChoice.Plain, hr, hz, ← h]
        simp
        intro hn
        rw [← (h.2 hn).1]; exact hz'
      · have hne : J.componentData.norm d = d → d ≠ {} := by
          intro e e'
          apply hz
          rw [e, e']; rfl
        simp only [J.Ok, J.mlDatasetChoice, MLDatasetChoice.Plain, hr, hz, ← h]
        simp
        rw [← h]
        exact ⟨fun hh => ⟨hh, hne hh.1⟩, fun hh => hh.1⟩
  · cases d <;> simp [J.Ok, J.mlDatasetChoice, MLDatasetChoice.Plain, hr]

instance : JNN J.mlDatasetChoice := ⟨fun _ _ => rfl⟩
'''
HLAW['ToolsChoice'] = '''theorem ok_toolsChoice (x : ToolsChoice) : J.Ok J.toolsChoice x ↔ x.Plain := by
  have ht := (ok_pslice J.tool x.tools).trans (PSlice.each_congr ok_tool _)
  have hc := (ok_pslice J.component x.components).trans (PSlice.each_congr ok_component _)
  have hs := (ok_pslice J.service x.services).trans (PSlice.each_congr ok_service _)
  rw [ToolsChoice.Plain, ← ht, ← hc, ← hs]
  obtain ⟨t, c, s⟩ := x
  simp only [J.Ok, J.toolsChoice]
  have hz : (JCodec.pslice J.component).norm .nil = .nil := rfl
  have hz' : (JCodec.pslice J.service).norm .nil = .nil := rfl
  have hz'' : (JCodec.pslice J.tool).norm .nil = .nil := rfl
  by_cases h : t = .nil
  · subst h
    simp [PSlice.isNil, hz'']
    grind
  · have h' : t.isNil = false := by cases t <;> simp_all [PSlice.isNil]
    simp [h, h']
    constructor
    · rintro ⟨⟨h1, rfl, rfl⟩, h2, h3, h4⟩
      exact ⟨⟨rfl, rfl⟩, ⟨h1, h2⟩, ⟨hz, h3⟩, ⟨hz', h4⟩⟩
    · rintro ⟨⟨rfl, rfl⟩, ⟨h1, h2⟩, ⟨_, h3⟩, ⟨_, h4⟩⟩
      exact ⟨⟨h1, rfl, rfl⟩, h2, h3, h4⟩

instance : JNN J.toolsChoice := ⟨by
  intro x h
  rw [ok_toolsChoice] at h
  have := h.2.1.1
  cases ht : x.tools <;> simp_all [J.toolsChoice, JCodec.pslice, PSlice.isNil]⟩
'''
HLAW['EvidenceIdentityChoice'] = '''theorem ok_evidenceIdentityChoice (x : EvidenceIdentityChoice) :
    J.Ok J.evidenceIdentityChoice x ↔ x.Plain := by
  obtain ⟨i, l⟩ := x
  cases i with
  | some i =>
    have h := ok_evidenceIdentity i
    simp only [J.Ok] at h
    simp only [J.Ok, J.evidenceIdentityChoice, EvidenceIdentityChoice.Plain]
    simp
    constructor
    · rintro ⟨⟨h1, rfl⟩, h2, _⟩; exact ⟨i, h.1 ⟨h1, h2⟩, rfl, rfl⟩
    · rintro ⟨i', h1, rfl, rfl⟩
      exact ⟨⟨(h.2 h1).1, rfl⟩, (h.2 h1).2, by simp [JCodec.pslice, PSlice.elems]⟩
  | none =>
    have h := (ok_pslice J.evidenceIdentity l).trans (PSlice.each_congr ok_evidenceIdentity _)
    cases l with
    | nil => simp [J.Ok, J.evidenceIdentityChoice, EvidenceIdentityChoice.Plain]
    | nilSlice => simp [J.Ok, J.evidenceIdentityChoice, EvidenceIdentityChoice.Plain]
    | list ids =>
      simp only [J.Ok, PSlice.Each, PSlice.elems] at h
      simp [J.Ok, J.evidenceIdentityChoice, EvidenceIdentityChoice.Plain]
      simp [JCodec.pslice] at h
      simpa [JCodec.pslice] using h

instance : JNN J.evidenceIdentityChoice := ⟨by
  intro x h
  rw [ok_evidenceIdentityChoice] at h
  rcases h with ⟨i, _, rfl⟩ | ⟨ids, _, rfl⟩ <;> simp [J.evidenceIdentityChoice, JCodec.pslice]⟩
'''
def twolaw(k, T, a, b, A, B, field):
    return f'''theorem ok_{k} (x : {T}) : J.Ok J.{k} x ↔ x.Plain := by
  obtain ⟨p, q⟩ := x
  cases p with
  | some p =>
    have h := ok_{A} p
    simp only [J.Ok] at h
    cases q <;> simp [J.Ok, J.{k}, {T}.Plain, ← h] <;> grind
  | none =>
    cases q with
    | some q =>
      have h := ok_{B} q
      simp only [J.Ok] at h
      simp [J.Ok, J.{k}, {T}.Plain, ← h]
    | none => simp [J.Ok, J.{k}, {T}.Plain]

instance : JNN J.{k} := ⟨fun _ _ => rfl⟩
'''
HLAW['CertificateState'] = twolaw('certificateState', 'CertificateState', 'predefined', 'custom', 'predefinedCertificateState', 'customCertificateState', 'state')
HLAW['CertificateExtension'] = twolaw('certificateExtension', 'CertificateExtension', 'common', 'custom', 'commonCertificateExtension', 'customCertificateExtension', 'name')
HLAW['PatentChoice'] = '''theorem ok_patentChoice (x : PatentChoice) : J.Ok J.patentChoice x ↔ x.Plain := by
  obtain ⟨p, q⟩ := x
  cases p with
  | some p =>
    have h := ok_patent p
    simp only [J.Ok] at h
    cases q <;> simp [J.Ok, J.patentChoice, PatentChoice.Plain, ← h]
  | none =>
    cases q with
    | some q =>
      have h := ok_patentFamily q
      simp only [J.Ok] at h
      simp [J.Ok, J.patentChoice, PatentChoice.Plain, ← h]
      grind
    | none => simp [J.Ok, J.patentChoice, PatentChoice.Plain]

instance : JNN J.patentChoice := ⟨fun _ _ => rfl⟩
'''
HLAW['AsserterChoice'] = '''theorem ok_asserterChoice (x : AsserterChoice) : J.Ok J.asserterChoice x ↔ x.Plain := by
  obtain ⟨o, i, r⟩ := x
  cases o with
  | some o =>
    have h := ok_organizationalEntity o
    simp only [J.Ok] at h
    cases i <;> cases r <;> simp [J.Ok, J.asserterChoice, AsserterChoice.Plain, ← h]
  | none =>
    cases i with
    | some i =>
      have h := ok_organizationalContact i
      simp only [J.Ok] at h
      cases r <;> simp [J.Ok, J.asserterChoice, AsserterChoice.Plain, ← h]
    | none =>
      cases r <;> simp [J.Ok, J.asserterChoice, AsserterChoice.Plain]

instance : JNN J.asserterChoice := ⟨fun _ _ => rfl⟩
'''

if __name__ == '__main__':
    open('/verif/lean/Verif/Spec/Plain.lean', 'w').write(spec())
    open('/verif/lean/Verif/Json/PlainLaws.lean', 'w').write(laws())
