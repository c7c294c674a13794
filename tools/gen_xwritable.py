#!/usr/bin/env python3
"""Generates lean/Verif/Spec/XmlWritable.lean (which values can be written as XML), lean/Verif/Spec/GoInts.lean (which
values have only Go integers), both stated without the codecs, and lean/Verif/Xml/WritableLaws.lean (how the codecs
relate to them)."""
import os, re, sys
sys.path.insert(0, os.path.dirname(__file__))
from gostructs import structs
from gen_types import ORDER
from gen_json import cname
from gen_xml import NONE, IKE
from gen_xplain import kind

HERE = os.path.dirname(__file__)
WSPEC = {}; WLAW = {}; GLAW = {}
exec(open(os.path.join(HERE, 'xwritable.txt')).read())

def base(f):
    if f.ty == '*Licenses': return 'LicenseChoice'
    if f.ty == '*EnvironmentVariables': return 'EnvironmentVariableChoice'
    return f.ty.replace('*', '').replace('[]', '')

class Pred:
    def __init__(self, name, leaf, base, rec, skips):
        self.name, self.leaf, self.base, self.rec, self.skips, self.memo = name, leaf, base, rec, skips, {}
    def nt(self, t):
        if t in self.leaf: return True
        if t not in structs: return False
        if t in self.base or t in self.rec: return True
        if t not in self.memo:
            self.memo[t] = False
            self.memo[t] = any(self.fnt(t, f) for f in structs[t].fields)
        return self.memo[t]
    def fnt(self, n, f): return not (self.skips and kind(n, f) == 'skip') and self.nt(base(f))
    def cond(self, n, f, x):
        if not self.fnt(n, f): return None
        v = f'{x}.{f.name}' if x else f.name; b = base(f)
        p = self.leaf.get(b, f'{b}.{self.name}')
        if f.ty.startswith('*[]') or f.ty in ('*Licenses', '*EnvironmentVariables'): return f'(∀ y ∈ {v}.elems, {p} y)'
        if f.ty.startswith('*'): return f'(∀ y ∈ {v}, {p} y)'
        return f'{p} {v}'
    def conds(self, n, x, over={}):
        return [c for f in structs[n].fields for c in [over.get(f.name) or self.cond(n, f, x)] if c]
    def spec(self):
        o = []; w = o.append; N = self.name
        for n in ORDER:
            s = structs[n]
            if not self.nt(n) or (n in NONE and n not in self.base): continue
            if n in self.base: w(self.base[n].format(a=s.a, b=s.b)); continue
            if n == 'Pedigree': continue
            if n == 'Component':
                body = ' ∧\n    '.join(self.conds(n, '', {'components': f'{N}Components components', 'pedigree': f'{N}PedigreeOpt pedigree'}))
                pb = ' ∧\n    '.join(self.conds('Pedigree', '', {x: f'{N}Components {x}' for x in ('ancestors', 'descendants', 'variants')}))
                w(f'''mutual
/-- cyclonedx.go:{s.a}-{s.b} -/
def Component.{N} : Component → Prop
  | .mk {pat(n, body)} =>
    {body}
/-- A list of components, at any depth. -/
def {N}Components : PSlice Component → Prop
  | .list xs => {N}ComponentList xs
  | _ => True
/-- A list of components, at any depth. -/
def {N}ComponentList : List Component → Prop
  | [] => True
  | c :: cs => c.{N} ∧ {N}ComponentList cs
/-- An optional pedigree. -/
def {N}PedigreeOpt : Option (Pedigree Component) → Prop
  | none => True
  | some p => {N}Pedigree p
/-- cyclonedx.go:{structs["Pedigree"].a}-{structs["Pedigree"].b} -/
def {N}Pedigree : Pedigree Component → Prop
  | .mk {pat('Pedigree', pb)} =>
    {pb}
end
'''); continue
            if n == 'Service':
                body = ' ∧\n    '.join(self.conds(n, '', {'services': f'{N}Services services'}))
                w(f'''mutual
/-- cyclonedx.go:{s.a}-{s.b} -/
def Service.{N} : Service → Prop
  | .mk {pat(n, body)} =>
    {body}
/-- A list of services, at any depth. -/
def {N}Services : PSlice Service → Prop
  | .list xs => {N}ServiceList xs
  | _ => True
/-- A list of services, at any depth. -/
def {N}ServiceList : List Service → Prop
  | [] => True
  | c :: cs => c.{N} ∧ {N}ServiceList cs
end
'''); continue
            w(f'''/-- cyclonedx.go:{s.a}-{s.b} -/
def {n}.{N} (x : {n}) : Prop :=
  {' ∧ '.join(self.conds(n, 'x'))}
''')
        w('end Verif')
        return '\n'.join(o) + '\n'

def pat(n, body): return ' '.join(f.name if re.search(r'\b' + f.name + r'\b', body) else '_' for f in structs[n].fields)

W = Pred('XWritable', {}, WSPEC, ('Component', 'Service'), True)
G = Pred('GoInts', {'int': 'InInt64'}, {}, ('Component',), False)

WF = ('xwF_nil, xwF_skip, xwF_attr, xwF_attrPtr, xwF_chardata, xwF_elem, xw_plain_simple, xw_plain_ref, xw_plain_struct, '
      'xw_ptr, xw_list_simple, xw_list_ref, xw_list_struct, xw_nlist_simple, xw_nlist_ref, xw_nlist_struct, xw_nptr, xw_licenses_field, xw_environmentVariables_field, '
      'xw_simple, xw_ref')
GF = ('XFields.good, XField.plain, XField.ptr, XField.list, XField.nlist, XField.nptr, XField.slice, XCodec.simple, XText.string, '
      'XText.int, XText.bool, XText.f32, XText.f64, XText.bomReference, xg_ref, xg_dependencyRef, xg_licenses, xg_environmentVariables')
TR = 'and_true, true_and, implies_true'

def deps(n, P, pre, only_trivial=False):
    out = set()
    for f in structs[n].fields:
        b = base(f)
        if kind(n, f) == 'skip' or b not in structs: continue
        if b in ('LicenseChoice', 'EnvironmentVariableChoice'): continue
        if (n, b) in (('Component', 'Component'), ('Component', 'Pedigree'), ('Pedigree', 'Component'), ('Service', 'Service')): continue
        if only_trivial and P.nt(b): continue
        out.add(pre + cname(b))
    return ''.join(x + ', ' for x in sorted(out))

def gterm(n):
    """the proof that the integers of a struct are good, from those of its fields"""
    fs = [f for f in structs[n].fields if G.fnt(n, f)]
    out = []
    for i, f in enumerate(fs):
        h = 'h' + '.2' * i + ('.1' if i < len(fs) - 1 else '')
        b = base(f)
        if b == 'int': out.append(h)
        elif f.ty.startswith('*'): out.append(f'fun y hy => xg_{cname(b)} ({h} y hy)')
        else: out.append(f'xg_{cname(b)} {h}')
    return out[0] if len(out) == 1 else '⟨' + ', '.join(out) + '⟩'

def laws():
    o = [HEAD]; w = o.append
    w('/-! ## What can be written -/\n')
    w(WHEAD)
    for n in ORDER:
        k = cname(n)
        if n in WLAW: w(WLAW[n].replace('@DEPS@', deps(n, W, 'xw_'))); continue
        if n in NONE: continue
        if n in IKE:
            w(f'''theorem xw_{k} (n : String) (x : {n}) : (X.{k}.enc n x).isSome = true ↔ True := by
  simp only [X.{k}, X.ikev2]
  split
  · simp
  · rw [xw_struct]
    simp only [X.{k}Fields, {WF}, {TR}]
'''); continue
        rhs = 'x.XWritable' if W.nt(n) else 'True'
        uf = f'{n}.XWritable, ' if W.nt(n) else ''
        w(f'''theorem xw_{k} (n : String) (x : {n}) : (X.{k}.enc n x).isSome = true ↔ {rhs} := by
  rw [X.{k}, xw_struct X.{k}Fields]
  simp only [X.{k}Fields, {WF}, {n}.toP, {uf}{deps(n, W, 'xw_')}{TR}]
''')
    w('/-! ## Integers -/\n')
    w(GHEAD)
    for n in ORDER:
        k = cname(n)
        if n in GLAW: w(GLAW[n].replace('@DEPS@', deps(n, G, 'xg_', True)).replace('@TERM@', gterm(n) if G.nt(n) else '')); continue
        if n in NONE: continue
        if n in IKE:
            if G.nt(n):
                w(f'''theorem xg_{k} {{x : {n}}} (h : x.GoInts) : X.{k}.good x := by
  intro _
  simp only [X.{k}Fields, {GF}, {n}.toP, {TR}]
  exact {gterm(n)}
''')
            else:
                w(f'''theorem xg_{k} (x : {n}) : X.{k}.good x ↔ True := by
  simp only [X.{k}, X.ikev2, X.{k}Fields, {GF}, {TR}]
''')
            continue
        if G.nt(n):
            w(f'''theorem xg_{k} {{x : {n}}} (h : x.GoInts) : X.{k}.good x := by
  show X.{k}Fields.good ({n}.toP x)
  simp only [X.{k}Fields, {GF}, {n}.toP, {deps(n, G, 'xg_', True)}{TR}]
  exact {gterm(n)}
''')
        else:
            w(f'''theorem xg_{k} (x : {n}) : X.{k}.good x ↔ True := by
  show X.{k}Fields.good ({n}.toP x) ↔ True
  simp only [X.{k}Fields, {GF}, {n}.toP, {deps(n, G, 'xg_', True)}{TR}]
''')
    w('end Verif')
    t = ('\n'.join(o) + '\n').replace('@WF@', WF).replace('@GF@', GF).replace('@TR@', TR)
    for x in ('xw_licenses_field', 'xw_environmentVariables_field', 'xg_licenses', 'xg_environmentVariables'):
        i = t.index('theorem ' + x + ' ')  # not usable before it is proved
        t = t[:i].replace(', ' + x, '') + t[i:]
    return t

CHAND = {
'License': 'theorem License.copy_xwritable {x : License} (h : x.XWritable) : x.copy.XWritable := h\n',
'LicenseChoice': '''theorem LicenseChoice.copy_xwritable {x : LicenseChoice} (h : x.XWritable) : x.copy.XWritable :=
  Option.map_all (P := fun y => x.expression = "" ∧ License.XWritable y)
    (fun _ h => ⟨h.1, License.copy_xwritable h.2⟩) h
''',
'EnvironmentVariableChoice': '''theorem EnvironmentVariableChoice.copy_xwritable {x : EnvironmentVariableChoice} (h : x.XWritable) : x.copy.XWritable :=
  h.imp (fun h => by simp [EnvironmentVariableChoice.copy, h]) _root_.id
''',
'Evidence': '''theorem Evidence.copy_xwritable {x : Evidence} (h : x.XWritable) : x.copy.XWritable :=
  PSlice.copyWith_all (fun _ => LicenseChoice.copy_xwritable) h
''',
'ToolsChoice': '''theorem ToolsChoice.copy_xwritable {x : ToolsChoice} (h : x.XWritable) : x.copy.XWritable := by
  obtain ⟨h1, h2, h3⟩ := h
  refine ⟨?_, PSlice.copyWith_all (fun _ => Component.copy_xwritable) h2,
    PSlice.copyWith_all (fun _ => Service.copy_xwritable) h3⟩
  rcases h1 with h | ⟨h, h'⟩
  · exact .inl (by simp [ToolsChoice.copy, h, PSlice.copyWith])
  · exact .inr ⟨by simp [ToolsChoice.copy, h, PSlice.copyWith], by simp [ToolsChoice.copy, h', PSlice.copyWith]⟩
'''}
for T, a, b in (('CertificateState', 'predefined', 'custom'), ('CertificateExtension', 'common', 'custom'), ('AsserterChoice', 'organization', 'individual')):
    CHAND[T] = f'''theorem {T}.copy_xwritable {{x : {T}}} (h : x.XWritable) : x.copy.XWritable :=
  h.imp (fun h => by simp [{T}.copy, h]) (fun h => by simp [{T}.copy, h])
'''

def copy(P, suf, hand):
    """The deep copy keeps the predicate."""
    o = []; w = o.append; N = P.name
    lo = N[0].lower() + N[1:]
    def term(f, h):
        b = base(f)
        if f.ty.startswith('*[]') or f.ty in ('*Licenses', '*EnvironmentVariables'):
            return f'PSlice.copyWith_all (fun _ h => h) {h}' if b in P.leaf else f'PSlice.copyWith_all (fun _ => {b}.{suf}) {h}'
        if f.ty.startswith('*'): return f'fun x hx => {h} x (Gob.int_mem hx)' if b in P.leaf else f'Option.map_all (fun _ => {b}.{suf}) {h}'
        return h if b in P.leaf else f'{b}.{suf} {h}'
    def tup(ts): return ts[0] if len(ts) == 1 else '⟨' + ', '.join(ts) + '⟩'
    for n in ORDER:
        if not P.nt(n) or (n in NONE and n not in P.base and n not in hand) or n == 'Pedigree': continue
        if n in hand: w(hand[n]); continue
        fl = [f for f in structs[n].fields if P.fnt(n, f)]
        ob = 'have h0 := h' if len(fl) == 1 else 'obtain ' + tup([f'h{i}' for i in range(len(fl))]) + ' := h'
        if n == 'Component':
            pf = [f for f in structs['Pedigree'].fields if P.fnt('Pedigree', f)]
            pt = [f'copyComponents_{lo} (fun d hd => ih\' d (by simp [Pedigree.relatives, hd])) w{i}' if base(f) == 'Component' else term(f, f'w{i}') for i, f in enumerate(pf)]
            ct = [{'components': 'hc', 'pedigree': 'hp'}[f.name] + f' h{i}' if f.name in ('components', 'pedigree') else term(f, f'h{i}') for i, f in enumerate(fl)]
            w(f'''theorem copyComponents_{lo} {{p : PSlice Component}} (hp : ∀ c ∈ p.elems, c.{N} → c.copy.{N})
    (h : {N}Components p) : {N}Components (copyComponents p) := by
  rw [{lo}Components_iff] at h ⊢
  rw [copyComponents_eq]
  intro c hc
  obtain ⟨d, hd, rfl⟩ := PSlice.mem_copyWith hc
  exact hp d hd (h d hd)

theorem Component.{suf} {{x : Component}} : x.{N} → x.copy.{N} := by
  induction x using Component.induct with
  | h c ih =>
    intro h
    have hc : {N}Components c.components → {N}Components (copyComponents c.components) :=
      copyComponents_{lo} fun d hd => ih d (by simp [Component.children, hd])
    have hp : {N}PedigreeOpt c.pedigree → {N}PedigreeOpt (copyPedigreeOpt c.pedigree) := by
      cases hp : c.pedigree with
      | none => simp [copyPedigreeOpt, {N}PedigreeOpt]
      | some p =>
        simp only [copyPedigreeOpt, {N}PedigreeOpt]
        have ih' : ∀ d ∈ p.relatives, d.{N} → d.copy.{N} :=
          fun d hd => ih d (by simp [Component.children, hp, hd])
        intro hw
        cases p
        simp only [copyPedigree, {N}Pedigree] at hw ⊢
        obtain {tup([f'w{i}' for i in range(len(pf))])} := hw
        exact {tup(pt)}
    cases c
    simp only at hc hp
    simp only [Component.copy, Component.{N}] at h ⊢
    {ob}
    exact {tup(ct)}
'''); continue
        if n == 'Service':
            ct = ['hc' + f' h{i}' if f.name == 'services' else term(f, f'h{i}') for i, f in enumerate(fl)]
            w(f'''theorem Service.{suf} {{x : Service}} : x.{N} → x.copy.{N} := by
  induction x using Service.induct with
  | h c ih =>
    intro h
    have hc : {N}Services c.services → {N}Services (copyServices c.services) := by
      rw [{lo}Services_iff, {lo}Services_iff, copyServices_eq]
      intro h d hd
      obtain ⟨e, he, rfl⟩ := PSlice.mem_copyWith hd
      exact ih e (by simp [Service.children, he]) (h e he)
    cases c
    simp only at hc
    simp only [Service.copy, Service.{N}] at h ⊢
    {ob}
    exact {tup(ct)}
'''); continue
        w(f'''theorem {n}.{suf} {{x : {n}}} (h : x.{N}) : x.copy.{N} := by
  {ob}
  exact {tup([term(f, f'h{i}') for i, f in enumerate(fl)])}
''')
    return '\n'.join(o)

def copies():
    return CHEAD + copy(W, 'copy_xwritable', CHAND) + '\n' + copy(G, 'copy_goInts', {}) + '\nend Verif\n'

if __name__ == '__main__':
    open('/verif/lean/Verif/Proofs/GobXml.lean', 'w').write(copies())
    open('/verif/lean/Verif/Spec/XmlWritable.lean', 'w').write(WSHEAD + W.spec())
    open('/verif/lean/Verif/Spec/GoInts.lean', 'w').write(GSHEAD + G.spec())
    open('/verif/lean/Verif/Xml/WritableLaws.lean', 'w').write(laws())
