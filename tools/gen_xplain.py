#!/usr/bin/env python3
"""Generates lean/Verif/Spec/XmlPlain.lean (which values survive an XML round trip, stated without the codecs) and
lean/Verif/Xml/PlainLaws.lean (that this is what the codecs do).  The types with hand-written methods are in
xplain_spec.txt and xplain_laws.txt."""
import os, re, sys
sys.path.insert(0, os.path.dirname(__file__))
from gostructs import structs, named
from gen_types import ORDER, zero
from gen_json import cname
from gen_xml import field, NONE, IKE, CUSTOM

HERE = os.path.dirname(__file__)

def base(f): return f.ty.replace('*', '').replace('[]', '')

def scalar(t, v):
    """condition on a scalar, '' if there is none, None if the type is not a scalar"""
    if t in structs: return None
    if t == 'bool': return ''
    if t == 'int': return f'InInt64 {v}'
    if t == 'float32' or t == 'float64': return f'{v}.XPlain'
    if t == 'BOMReference': return f'XString {v}.val'
    return f'XString {v}'

def kind(n, f):
    k, e = field(n, f)
    return e.split('(')[1].split()[0][1:] if k == 'elem' else k

def cond(n, f, x):
    k = kind(n, f); v = f'{x}.{f.name}' if x else f.name; b = base(f)
    e = field(n, f)[1]; oe = ' true ' in e
    if k == 'skip': return f'{v} = {zero(f.ty)}'
    if f.ty == '*Licenses': return f'{v}.XEach LicenseChoice.XPlain'
    if f.ty == '*EnvironmentVariables': return f'{v}.XEach EnvironmentVariableChoice.XPlain'
    if k == 'nptr': return f'{v} = none'
    if k in ('list', 'nlist'):
        if b in structs: return f'{v}.XEach {b}.XPlain'
        assert oe
        if b == 'BOMReference': return f'{v}.XEach (fun y => y.val ≠ "" ∧ XString y.val)'
        if b == 'int': return f'{v}.XEach (fun y => y ≠ 0 ∧ InInt64 y)'
        return f'{v}.XEach (fun y => y ≠ "" ∧ XString y)'
    if k in ('ptr', 'attrPtr'):
        c = scalar(b, 'y')
        if c == '': return None
        return f'(∀ y ∈ {v}, {c if c is not None else f"{b}.XPlain y"})'
    assert k in ('plain', 'attr', 'chardata'), k
    c = scalar(b, v)
    if c == '': return None
    return f'{b}.XPlain {v}' if c is None else c

SPEC = {}
exec(open(os.path.join(HERE, 'xplain_spec.txt')).read())
LAW = {}
exec(open(os.path.join(HERE, 'xplain_laws.txt')).read())

def conds(n, x, over={}, skip=()):
    out = []
    for f in structs[n].fields:
        if f.name in skip: continue
        c = over.get(f.name) or cond(n, f, x)
        if c: out.append(c)
    return out

def pat(n, body): return ' '.join(f.name if re.search(r'\b' + f.name + r'\b', body) else '_' for f in structs[n].fields)

def spec():
    o = [SHEAD]; w = o.append
    for n in ORDER:
        s = structs[n]; k = cname(n)
        if n in SPEC: w(SPEC[n]); continue
        if n in NONE or n == 'Pedigree': continue
        if n in IKE:
            own = conds(n, 'x', skip=('bomRef',))
            z = ' ∧ '.join(f'x.{f.name} = {zero(f.ty)}' for f in s.fields if f.name != 'bomRef')
            w(f'''/-- Either a reference alone, without white space around it, or everything but a reference
(cyclonedx.go:{s.a}-{s.b}). -/
def {n}.XPlain (x : {n}) : Prop :=
  (x.bomRef.val ≠ "" ∧ XString x.bomRef.val ∧ Trimmed x.bomRef.val ∧ {z}) ∨
  (x.bomRef.val = "" ∧ {' ∧ '.join(own)})
'''); continue
        if n == 'Component':
            body = ' ∧\n    '.join(conds(n, '', {'components': 'XPlainComponents components', 'pedigree': 'XPlainPedigreeOpt pedigree'}))
            pb = ' ∧\n    '.join(conds('Pedigree', '', {x: f'XPlainComponents {x}' for x in ('ancestors', 'descendants', 'variants')}))
            w(f'''mutual
/-- cyclonedx.go:{s.a}-{s.b} -/
def Component.XPlain : Component → Prop
  | .mk {pat(n, body)} =>
    {body}
/-- A list of components, at any depth. -/
def XPlainComponents : PSlice Component → Prop
  | .nil => True
  | .nilSlice => False
  | .list xs => xs ≠ [] ∧ XPlainComponentList xs
/-- A list of components, at any depth. -/
def XPlainComponentList : List Component → Prop
  | [] => True
  | c :: cs => c.XPlain ∧ XPlainComponentList cs
/-- An optional pedigree. -/
def XPlainPedigreeOpt : Option (Pedigree Component) → Prop
  | none => True
  | some p => XPlainPedigree p
/-- cyclonedx.go:{structs["Pedigree"].a}-{structs["Pedigree"].b} -/
def XPlainPedigree : Pedigree Component → Prop
  | .mk {pat('Pedigree', pb)} =>
    {pb}
end
'''); continue
        if n == 'Service':
            body = ' ∧\n    '.join(conds(n, '', {'services': 'XPlainServices services'}))
            w(f'''mutual
/-- cyclonedx.go:{s.a}-{s.b} -/
def Service.XPlain : Service → Prop
  | .mk {pat(n, body)} =>
    {body}
/-- A list of services, at any depth. -/
def XPlainServices : PSlice Service → Prop
  | .nil => True
  | .nilSlice => False
  | .list xs => xs ≠ [] ∧ XPlainServiceList xs
/-- A list of services, at any depth. -/
def XPlainServiceList : List Service → Prop
  | [] => True
  | c :: cs => c.XPlain ∧ XPlainServiceList cs
end
'''); continue
        skip = ('xmlName', 'jsonSchema', 'bomFormat', 'specVersion', 'signature') if n == 'BOM' else ()
        cs = conds(n, 'x', skip=skip)
        note = ', except for the fields that are not part of the XML format or are determined by the namespace' if n == 'BOM' else ''
        w(f'''/-- cyclonedx.go:{s.a}-{s.b}{note} -/
def {n}.XPlain ({'x' if cs else '_'} : {n}) : Prop :=
  {' ∧ '.join(cs) if cs else 'True'}
''')
    w('end Verif')
    return '\n'.join(o) + '\n'

ROK = 'xokF_nil, xokF_skip, xokF_attr, xokF_attrPtr, xokF_chardata, xokF_elem'
FOK = ('fok_plain_simple, fok_plain_ref, fok_plain_struct, fok_ptr, fok_list, fok_nlist, fok_dataflow, fok_evidenceData, '
       'aok_string, aok_ref, aok_int, aok_bool, aok_f32, xok_text, tok_string, tok_ref, tok_int, '
       'tok_bool, tok_f32, tok_f64, xok_ref, eok_string, eok_ref, eok_int, eok_of')

def deps(n):
    out = set()
    for f in structs[n].fields:
        b = base(f)
        if kind(n, f) == 'skip' or b not in structs or kind(n, f) == 'nptr': continue
        if (n, b) in (('Component', 'Component'), ('Component', 'Pedigree'), ('Pedigree', 'Component'), ('Service', 'Service')): continue
        out.add('xok_' + cname(b))
    if any(f.ty == '*Licenses' for f in structs[n].fields): out.add('fok_licenses')
    if any(f.ty == '*EnvironmentVariables' for f in structs[n].fields): out.add('fok_environmentVariables')
    return ''.join(x + ', ' for x in sorted(out))

def laws():
    o = [LHEAD]; w = o.append
    for n in ORDER:
        s = structs[n]; k = cname(n)
        if n in LAW: w(LAW[n]); continue
        if n in NONE: continue
        if n in IKE:
            w(IKELAW(n, k, s)); continue
        if n == 'Pedigree':
            w(PEDLAW.replace('@DEPS@', deps(n))); continue
        if n == 'Component':
            w(COMPLAW.replace('@DEPS@', deps(n))); continue
        if n == 'Service':
            w(SERVLAW.replace('@DEPS@', deps(n))); continue
        if n == 'BOM':
            w(BOMLAW.replace('@DEPS@', deps(n))); continue
        T = 'X.licenseAlias' if n == 'License' else f'X.{k}'
        w(f'''instance : XNonEmpty X.{k} := ⟨fun _ => rfl⟩
instance : XAlways X.{k} := ⟨fun _ => rfl⟩

theorem xok_{k} (x : {n}) : X.Ok X.{k} x ↔ x.XPlain := by
  show X.Ok {T} x ↔ _
  rw [{T}, xok_struct X.{k}Fields _ _ (fun _ => rfl) (fun _ => rfl)]
  simp only [X.{k}Fields, {ROK}, {n}.toP, {n}.XPlain, {FOK}, {deps(n)}and_true, true_and, implies_true]
''')
    w('end Verif')
    return ('\n'.join(o) + '\n').replace('@ROK@', ROK).replace('@FOK@', FOK)

if __name__ == '__main__':
    open('/verif/lean/Verif/Spec/XmlPlain.lean', 'w').write(spec())
    open('/verif/lean/Verif/Xml/PlainLaws.lean', 'w').write(laws())
