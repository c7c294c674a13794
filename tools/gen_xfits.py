#!/usr/bin/env python3
"""Generates lean/Verif/Spec/XmlFits.lean (which values are written as the XML schema of a version declares, stated
on the values) and lean/Verif/Xml/FitsLaws.lean (that this is what the codecs write)."""
import os, re, sys
sys.path.insert(0, os.path.dirname(__file__))
from gostructs import structs, named
from gen_types import ORDER
from gen_json import cname
from gen_xml import field, CUSTOM, IKE, NONE, SLICES, SELF
from xschema import places, names
HERE = os.path.dirname(os.path.abspath(__file__))
V = lambda n: f'SpecVersion1_{n}'

def els(p):
    if p[0] == 'el': return {p[1]: p[2]}
    if p[0] in ('seq', 'choice'): return {k: v for q in p[1] for k, v in els(q).items()}
    if p[0] == 'from': return {**els(p[2]), **els(p[3])}
    return els(p[1]) if p[0] in ('opt', 'many', 'some') else {}
def null(p):
    if p[0] in ('empty', 'opt', 'many'): return True
    if p[0] == 'el': return False
    if p[0] == 'some': return null(p[1])
    if p[0] == 'from': return null(p[2]) and null(p[3])
    return (all if p[0] == 'seq' else any)(map(null, p[1]))

class F:
    """a field: what is written for the value `val`"""
    def __init__(s, kind, n, inner=None, oe=True, base='string', val=None, rec=None):
        s.kind, s.n, s.inner, s.oe, s.base, s.val, s.rec = kind, n, inner, oe, base, val, rec
def gofield(T, f, x='x'):
    k, e = field(T, f)
    v = f'{x}.{f.name}' if x else f.name
    if k in ('skip', 'chardata'): return F(k, None)
    path = f.xml.split(',')[0]; oe = 'omitempty' in f.xml.split(',')[1:]
    base = f.ty.replace('*', '').replace('[]', '')
    if k in ('attr', 'attrPtr'): return F(k, path, None, oe, base, v)
    ps = path.split('>')
    kind = re.match(r'\.elem \(\.(\w+)', e).group(1)
    return F(kind, ps[0], ps[1] if len(ps) == 2 else None, oe, base, v, SELF.get((T, base)) and f.name)
def gofields(T, x='x', skip=()): return [gofield(T, f, x) for f in structs[T].fields if f.name not in skip]

SCALAR = {'string': 'string', 'bool': 'bool', 'int': 'int', 'float32': 'f32', 'float64': 'f64'}
def sname(t): return SCALAR.get(t) or ('string' if t in named and t != 'BOMReference' else None)
WTYPES = {'Evidence', 'ToolsChoice', 'CertificateState', 'CertificateExtension', 'AsserterChoice', 'MLDatasetChoice'}
HANDTRIV = {'Copyright', 'Property'}
HANDNT = WTYPES - {'CertificateState'} | {'DataClassification', 'Definitions', 'Dependency', 'License', 'Component', 'Service', 'Pedigree'} | set(IKE)
HANDFALSE = {('Property', 'properties')}
PLACES = {}
EXTRA = [('BOM', 'bom'), ('License', 'license'), ('Patent', 'patent'), ('PatentFamily', 'patentFamily'),
         ('StandardDefinition', 'standard'), ('EvidenceIdentity', 'identity'), ('EvidenceOccurrence', 'occurrence'),
         ('Callstack', 'callstack'), ('Tool', 'tool'), ('ComponentData', 'componentData'),
         ('OrganizationalEntity', 'organizationalEntity'), ('OrganizationalContact', 'organizationalContact'),
         ('DataGovernance', 'dataGovernance'), ('Property', 'property')]
def walk():
    todo = list(EXTRA); seen = set()
    while todo:
        T, P = todo.pop(0)
        if (T, P) in seen: continue
        seen.add((T, P)); PLACES.setdefault(T, []).append(P)
        if T in CUSTOM and T not in ('Copyright',): continue
        E = els(places[P][2]) if P != 'text' else {}
        for f in gofields(T):
            if f.kind in ('skip', 'chardata', 'attr', 'attrPtr') or f.n not in E: continue
            Q = E[f.n]
            if f.inner:
                E2 = els(places[Q][2])
                if f.inner not in E2: continue
                Q = E2[f.inner]
            if f.base in structs: todo.append((f.base, Q))

def fitname(t, p): return f'xfit_{cname(t)}' if PLACES[t][0] == p else f'xfit_{cname(t)}_{p}'
NT = {}
def nt(t, p=None):
    """does T.XFits say anything?"""
    if t in HANDNT: return True
    if t in HANDTRIV or t in CUSTOM: return False
    p = p or PLACES[t][0]
    if (t, p) not in NT:
        NT[t, p] = False
        NT[t, p] = bool(conds(t, p))
    return NT[t, p]
def par(c): return c if re.match(r'^[\w. ="≠≤0∈]*$', c) and '∧' not in c and '∨' not in c and not c.startswith('∀') else f'({c})'

def elemfit(f, Q):
    """(condition or None or 'False', writes always?, proof term taking name and value, lemma on emptiness)"""
    b = f.base
    if sname(b):
        if Q != 'text': raise Exception((f.n, b, Q))
        s = sname(b)
        return None, True, f'xfit_{s} v', f'xemp_{s}'
    if b == 'BOMReference':
        if Q == 'bomReference': return None, True, 'xfit_bomReference v', 'xemp_bomReference'
        assert Q == 'text', Q
        return 'False', True, 'xfit_bomReference_text v', 'xemp_bomReference'
    if f.rec: return f'{b}.XFits v', True, f.rec, None
    if b == 'Copyright': return None, True, 'xfit_copyright v', None
    if (b, Q) in HANDFALSE: return 'False', True, f'xfit_{cname(b)}_{Q} v', None
    assert Q in PLACES[b], (b, Q)
    c = f'{b}.XFits' if PLACES[b][0] == Q or (b, Q) in HANDFALSE or conds(b, Q) == conds(b, PLACES[b][0]) else f'{b}.XFits{Q[0].upper()}{Q[1:]}'
    return (f'{c} v' if nt(b, Q) else None), b not in WTYPES, fitname(b, Q) + ' v', None

def zero(f, y):
    s = sname(f.base)
    if f.base == 'BOMReference': return f'{y}.val = ""'
    return {'string': f'{y} = ""', 'bool': f'{y} = false', 'int': f'{y} = 0'}[s]

def anyplace(f):
    """a place for an undeclared field: any will do to count what is written"""
    if sname(f.base): return 'text'
    if f.base == 'BOMReference': return 'bomReference'
    if f.rec: return {'Pedigree': 'pedigree', 'Component': 'component', 'Service': 'service'}[f.base]
    return PLACES[f.base][0] if f.base in PLACES else None

def silent(f, Q=None):
    """(condition for nothing to be written, BFit v .empty proof)"""
    x = f.val
    if f.kind == 'nlist': return f'{x} = .nil', 'bf_nlist_empty'
    if f.kind == 'nptr': return f'{x} = none', 'bf_nptr_empty'
    if f.kind == 'slice':
        return f'{x}.elems = []', f'bf_slice_empty (xfit_{"licenses" if f.base == "Licenses" else "environmentVariables"} v _ _)'
    Q = Q or anyplace(f)
    if Q is None: assert False, (f.n, f.base)
    P, W, t, em = elemfit(f, Q)
    one = f'({t} _ _)' if not f.rec else f'h_{f.rec}'
    all_ = f'(fun a _ => {t} _ a)' if not f.rec else f'h_{f.rec}'
    if f.kind == 'plain':
        if f.oe and em: return zero(f, x), f'so_empty ({em} _) {one}'
        assert not f.oe or f.base in structs
        return 'False', f'bf_plain_empty {one}'
    if f.kind == 'ptr':
        if W: return f'{x} = none', f'pt_empty {all_}'
        return f'∀ y ∈ {x}, ¬ {f.base}.XWritten y', f'pw_empty {all_}'
    assert f.kind == 'list'
    if em:
        assert f.oe
        return f'∀ y ∈ {x}.elems, {zero(f, "y")}', f'ls_empty {em} {all_}'
    if W: return f'{x}.elems = []', f'lp_empty (fun _ => rfl) {all_}'
    return f'∀ y ∈ {x}.elems, ¬ {f.base}.XWritten y', f'lw_empty (fun _ => rfl) {all_}'

def bfit(f, p):
    """(condition or None, BFit v p proof) for a field whose name is the only one in p that it can write"""
    x = f.val
    if p[0] == 'empty': return silent(f)
    if p[0] == 'from':
        _, w, old, new = p
        if old == ('empty',) and null(new):
            Q = els(new).get(f.n if f.kind != 'inner' else f.n)
            E, et = silent(f, Q); P, pt = bfit(f, new)
            if E == 'False':
                assert P is not None
                return f'{V(w)} ≤ v ∧ {P}', f'bf_since_must ({et}) ({pt}) rfl'
            if P is None: return f'{par(E)} ∨ {V(w)} ≤ v', f'bf_since_t ({et}) ({pt}) rfl'
            if P.startswith(E + ' ∨ '): return f'{par(E)} ∨ {V(w)} ≤ v ∧ {P[len(E) + 3:]}', f'bf_since_absorb ({et}) ({pt}) rfl'
            if P == E: return E, f'bf_since_same ({et}) ({pt}) rfl'
            return f'{par(E)} ∨ {V(w)} ≤ v ∧ {par(P)}', f'bf_since ({et}) ({pt}) rfl'
        A, at = bfit(f, old); B, bt = bfit(f, new)
        if A == B: return A, f'bf_switch_same ({at}) ({bt})'
        if f.n not in names(old):
            return f'{par(A)} ∨ {V(w)} ≤ v ∧ {par(B)}', f'bf_switch_since ({at}) ({bt}) (fun h => by simp [h])'
        if A is None: return f'v < {V(w)} ∨ {B}', f'bf_switch_new ({at}) ({bt})'
        if B is None: return f'{V(w)} ≤ v ∨ {A}', f'bf_switch_old ({at}) ({bt})'
        return f'v < {V(w)} ∧ {par(A)} ∨ {V(w)} ≤ v ∧ {par(B)}', f'bf_switch ({at}) ({bt})'
    if f.n not in names(p):
        E, et = silent(f)
        return E, f'bf_other ({et}) rfl'
    if p[0] == 'choice':
        assert len(p[1]) == 2 and f.n not in names(p[1][0])
        E, et = bfit(f, p[1][0]); P, pt = bfit(f, p[1][1])
        return P, f'bf_choice_right ({et}) ({pt}) (fun h => by simp [h])'
    if p[0] == 'many' and p[1][0] == 'choice':
        assert len(p[1][1]) == 2 and p[1][1][1][1] == f.n
        P, pt = bfit(f, ('many', p[1][1][1]))
        return P, f'bf_many_right ({pt}) rfl'
    shape, el = (p[0], p[1]) if p[0] in ('opt', 'many', 'some') else ('el', p)
    assert el[0] == 'el' and el[1] == f.n, (f.n, p)
    Q = el[2]
    if f.kind == 'nlist':
        r = places[Q]
        assert shape in ('opt', 'el', 'many') and not any(a[2] for a in r[0]), (f.n, shape)
        g = F('list', f.inner, None, f.oe, f.base, x, f.rec)
        K, kt = bfit(g, r[2])
        if shape == 'el':
            if K is None: return f'{x} ≠ .nil', f'nt_el (r := .{Q}) rfl ({kt})'
            return f'{x} ≠ .nil ∧ {par(K)}', f'bf_nlist_el (r := .{Q}) rfl ({kt})'
        if shape == 'many':
            return K, f'np_many (r := .{Q}) rfl (fun h => by simp [h, PSlice.elems]) ({kt})'
        if K is None: return None, f'nt_opt (r := .{Q}) rfl ({kt})'
        if K == 'False': return f'{x} = .nil', f'nn_opt (r := .{Q}) rfl ({kt})'
        if 'some' in (r[2][0],): return f'{x} = .nil ∨ {par(K)}', f'bf_nlist_opt (r := .{Q}) rfl ({kt})'
        return K, f'np_opt (r := .{Q}) rfl (fun h => by simp [h, PSlice.elems]) ({kt})'
    if f.kind == 'slice':
        if f.base == 'Licenses':
            assert shape == 'opt'
            return f'XFitsLicenses v {x}.elems', 'sp_opt (fun h => by rw [h]; exact xfitsLicenses_nil v) (xfit_licenses v _ _)'
        return {'opt': (None, 'st_opt (xfit_environmentVariables v _ _)'),
                'el': (f'{x}.elems ≠ []', 'st_el (xfit_environmentVariables v _ _)')}[shape]
    P, W, t, em = elemfit(f, Q)
    one = f'({t} _ _)' if not f.rec else f'h_{f.rec}'
    all_ = f'(fun a _ => {t} _ a)' if not f.rec else f'h_{f.rec}'
    if f.kind == 'plain':
        if not f.oe or not em:
            return P, {'el': 'bf_plain_el', 'opt': 'bf_plain_opt'}[shape] + ' ' + one
        if P is None:
            if shape == 'el': return '¬ ' + zero(f, x) if '= ""' not in zero(f, x) else zero(f, x).replace('=', '≠'), f'so_el ({em} _) {one}'
            return None, f'so_{shape} {one}'
        assert P == 'False' and shape in ('opt', 'many')
        return zero(f, x), f'fo_{shape} ({em} _) {one}'
    if f.kind == 'ptr':
        al = f'∀ y ∈ {x}, {P} y'
        if not W:
            hP = f'{cname(f.base)}_unwritten v'
            if shape == 'opt': return al, f'pw_opt ({hP}) {all_}'
            assert shape == 'el'
            return f'∃ y ∈ {x}, {f.base}.XWritten y ∧ {P} y', f'pw_el {all_}'
        if P is None: return (f'{x} ≠ none' if shape == 'el' else None), f'pt_{shape} {all_}'
        if P == 'False':
            assert shape == 'opt'
            return f'{x} = none', f'pf_opt {all_}'
        return (f'∃ y ∈ {x}, {P} y' if shape == 'el' else al), f'pp_{shape} {all_}'
    assert f.kind == 'list', f.kind
    al = f'∀ y ∈ {x}.elems, {P} y'
    if em:
        assert f.oe
        z = zero(f, 'y')
        if P == 'False':
            if shape == 'some': return 'False', f'lf_some {all_}'
            assert shape == 'many'
            return f'∀ y ∈ {x}.elems, {z}', f'lf_many {em} {all_}'
        if shape == 'many': return None, f'lt_many {all_}'
        assert f.base == 'string' or f.base in named, f.base
        if shape == 'opt': return f'({x}.elems.filter (· ≠ "")).length ≤ 1', f'ls_opt {em} {all_}'
        return f'∃ y ∈ {x}.elems, y ≠ ""', f'ls_some {em} {all_}'
    if not W:
        assert shape == 'many'
        if P is None: return None, f'lwt_many {all_}'
        return al, f'lw_many (fun _ => rfl) ({cname(f.base)}_unwritten v) {all_}'
    he = '(fun _ => rfl)'
    if P == 'False':
        assert shape in ('opt', 'many')
        return f'{x}.elems = []', f'lpf_{shape} {he} {all_}'
    if shape == 'many': return (al, f'lp_many {he} {all_}') if P else (None, f'lt_many {all_}')
    first = f'{x}.elems.length ≤ 1' if shape == 'opt' else f'{x}.elems ≠ []'
    return first + (f' ∧ {al}' if P else ''), f'lp_{shape} {he} {all_}'

def hole(k): return '[' + ', '.join(['_'] * k) + ']'
def conj(cs): return ' ∧ '.join(par(c) for c in cs if c)

def kids(c, fs):
    """(list of conditions, KFit v c proof)"""
    if c[0] == 'seq': return items(list(c[1]), fs)
    if c[0] == 'empty': return items([], fs)
    if c[0] == 'opt' and c[1][0] != 'el':
        A, at = kids(c[1], fs)
        if null(c[1]): return A, f'kf_opt rfl ({at})'
        E, et = kids(('empty',), fs)
        if 'False' in E: return A, f'kf_opt_must ({et}) (by simp) ({at})'
        return or_([(E, et), (A, at)], 'kf_opt_or')
    if c[0] == 'choice':
        alts = [kids(q, fs) for q in c[1]]
        r = alts[-1]
        for a in reversed(alts[:-1]): r = or_([a, r], 'kf_choice')
        return r
    if c[0] == 'from':
        (A, at), (B, bt) = kids(c[2], fs), kids(c[3], fs)
        assert B
        if A == B: return A, f'kf_switch_same ({at}) ({bt})'
        if not A: return [f'v < {V(c[1])} ∨ {par(conj(B)) if len(B) > 1 else B[0]}'], f'kf_switch_new ({at}) ({bt})'
        return [f'v < {V(c[1])} ∧ {conj(A)} ∨ {V(c[1])} ≤ v ∧ {conj(B)}'], f'kf_switch ({at}) ({bt})'
    if c[0] == 'many' and c[1][0] == 'seq':
        A, at = kids(c[1], fs)
        if not A: return [], f'kf_many_one ({at})'
        need = {'composition': 'aggregate'}.get(None) or [n for n in map(lambda f: f.n, fs) if any(q == ('el', n, els(q).get(n)) for q in c[1][1])][0]
        E, et = kids(('empty',), fs)
        def am(fs):
            f = fs[0]
            if f.n == need:
                _, rt = kids(('empty',), fs[1:])
                _, _, t, _ = elemfit(f, els(c)[f.n])
                return f'am_here (v := v) (plain_one ({t} _ _)) ({rt}) rfl'
            _, st = silent(f)
            return f'am_other (v := v) ({st}) rfl ({am(fs[1:])})'
        if 'False' in E: return A, f'kf_many_must "{need}" rfl ({am(fs)}) ({et}) (by simp) ({at})'
        return [f'{conj(E)} ∨ {conj(A)}'], f'kf_many_once "{need}" rfl ({am(fs)}) ({et}) ({at})'
    cs, t = items([c], fs)
    return cs, f'kf_single ({t})'

def or_(two, lemma):
    (A, at), (B, bt) = two
    def s(X): return 'True' if not X else conj(X)
    return [f'{s(A)} ∨ {s(B)}'], f'{lemma} ({at}) ({bt})'

def items(its, fs):
    decl = set().union(*[names(i) for i in its]) if its else set()
    if fs and fs[0].n not in decl:
        E, et = silent(fs[0])
        cs, t = items(its, fs[1:])
        return [E] + cs, f'kf_none ({et}) rfl <|\n    {t}'
    if not its:
        assert not fs
        return [], 'kf_nil'
    it = its[0]; ns = names(it)
    mine = [f for f in fs if f.n in ns]
    if not mine:
        if not null(it):
            assert it[0] == 'el'
            _, et = kids(('empty',), fs)
            return ['False'], f'kf_missing "{it[1]}" rfl ({et})'
        cs, t = items(its[1:], fs)
        return cs, f'kf_gap rfl <|\n    {t}'
    pre = []; pulls = []
    fs = list(fs)
    for k, f in enumerate(mine):
        pos = fs.index(f)
        if pos > k:
            B = fs[k:pos]
            E, et = silent(f, els(it)[f.n] if f.kind in ('plain', 'ptr', 'list') else None)
            EB, bt = kids(('empty',), B)
            must = E == 'False'
            pre.append(conj(EB) if must else f'{par(E)} ∨ {conj(EB)}')
            pulls.append(f'kf_pull{"_must" if must else ""} (A := {hole(k)}) (B := {hole(len(B))}) ({et}) ({bt}) rfl <|\n    ')
            fs = fs[:k] + [f] + B + fs[pos + 1:]
    rest = fs[len(mine):]
    cs, t = items(its[1:], rest)
    if len(mine) == 1 and set(ns) == {mine[0].n}:
        c, bt = bfit(mine[0], it)
        step = f'kf_elem ({bt}) rfl <|\n    ' if c else f'kf_plain ({bt}) rfl <|\n    '
        return pre + ([c] if c else []) + cs, ''.join(pulls) + step + t
    G, gt = kids(it, mine)
    step = f'kf_group (fs := {hole(len(mine))}) ({gt}) rfl rfl <|\n    '
    return pre + G + cs, ''.join(pulls) + step + t

TXT = {'string': 'XText.string', 'BOMReference': 'XText.bomReference'}
def attrs(fs, P):
    """(conditions, AFit proof)"""
    if P == 'bom': decl = {a: s for a, s, _ in places[P][0]} | {'xmlns': None}
    else: decl = {a: s for a, s, _ in places[P][0]}
    cs, out = [], []
    for f in fs:
        if f.kind == 'skip': out.append('af_skip')
        elif f.kind == 'chardata': out.append('af_chardata')
        elif f.kind in ('attr', 'attrPtr'):
            p = f.kind == 'attrPtr'
            if f.n in decl:
                s = decl[f.n]
                if s is None: out.append('ap_ok rfl' if p else 'aa_ok rfl')
                elif p:
                    out.append('ap_since rfl'); cs.append(f'{f.val} = none ∨ {V(s)} ≤ v')
                else:
                    assert f.oe
                    em = 'emt_bomReference' if f.base == 'BOMReference' else 'emt_string'
                    out.append(f'aa_since_oe rfl ({em} _)'); cs.append(f'{zero(f, f.val)} ∨ {V(s)} ≤ v')
            else:
                assert f.oe
                if p:
                    out.append('ap_never rfl'); cs.append(f'{f.val} = none'); continue
                out.append('aa_never_oe rfl (emt_string _)'); cs.append(zero(f, f.val))
        else: out.append('af_elem')
    return cs, ' <| '.join(out + ['af_nil'])
def required(fs, P):
    req = [a for a, s, r in places[P][0] if r]
    cs, ws = [], []
    for n in req:
        w = []
        for f in fs:
            if f.kind == 'skip': w.append('wr_skip')
            elif f.kind == 'chardata': w.append('wr_chardata')
            elif f.kind == 'attr':
                if f.n == n:
                    if f.oe:
                        em = 'emt_bomReference' if f.base == 'BOMReference' else 'emt_string'
                        w.append(f'wr_oe rfl ({em} _)'); cs.append(zero(f, f.val).replace('=', '≠'))
                    else: w.append('wr_here')
                    break
                w.append('wr_other rfl')
            else: w.append('wr_elem')
        else: assert False, (P, n)
        ws.append('(' + ' <| '.join(w) + ')')
    return cs, ['rf_none rfl', 'rf_one rfl', 'rf_two rfl'][len(req)] + ''.join(' ' + w for w in ws)
ELEMS = ('plain', 'ptr', 'list', 'nlist', 'nptr', 'slice')
def struct(fs, P):
    """(conditions, CFit proof) of a struct with these fields"""
    a, at = attrs(fs, P); r, rt = required(fs, P)
    k, kt = kids(places[P][2], [f for f in fs if f.kind in ELEMS])
    mixed = places[P][1]
    ht = '(.inl rfl)' if mixed else '(.inr rfl)'
    return a + r + k, f'cf_struct ({at}) ({rt}) {ht}\n    ({kt})'
def conds(T, P): return struct(gofields(T), P)[0]

walk()

# --- specification ----------------------------------------------------------------------------------------------
def X(n): return f'{n}.XFits'
SPEC = {}
SPEC['CertificateState'] = '''/-- cyclonedx.go:{a}-{b}; something is written for it. -/
def CertificateState.XWritten (x : CertificateState) : Prop := x.predefined ≠ none ∨ x.custom ≠ none
'''
SPEC['CertificateExtension'] = '''/-- cyclonedx.go:{a}-{b}; something is written for it. -/
def CertificateExtension.XWritten (x : CertificateExtension) : Prop := x.common ≠ none ∨ x.custom ≠ none

/-- cyclonedx.go:{a}-{b}; a common extension needs a value. -/
def CertificateExtension.XFits (_v : Int) (x : CertificateExtension) : Prop := ∀ y ∈ x.common, y.value ≠ ""
'''
SPEC['LicenseChoice'] = '''/-- cyclonedx.go:{a}-{b}; an expression with details is declared from version 1.7 on, the attributes of one without
from version 1.6 on. -/
def LicenseChoice.XFits (v : Int) (x : LicenseChoice) : Prop :=
  (∀ y ∈ x.license, License.XFits v y) ∧
  (x.license = none → x.expression ≠ "" →
    x.expressionDetails = .nil ∧ (SpecVersion1_6 ≤ v ∨ x.bomRef = "" ∧ x.acknowledgement.getD "" = "") ∨
    x.expressionDetails ≠ .nil ∧ SpecVersion1_7 ≤ v)

/-- The licenses of a component, a service, the metadata or an evidence.  Before version 1.7 they are either all
licenses or a single expression; in version 1.0 there are no expressions, and there has to be a license. -/
def XFitsLicenses (v : Int) (l : List LicenseChoice) : Prop :=
  l = [] ∨ (∀ x ∈ l, x.XFits v) ∧
    (SpecVersion1_7 ≤ v ∨
      (∀ x ∈ l, x.license ≠ none ∨ x.expression = "") ∧ (SpecVersion1_1 ≤ v ∨ ∃ x ∈ l, x.license ≠ none) ∨
      SpecVersion1_1 ≤ v ∧ (∀ x ∈ l, x.license = none) ∧ (l.filter (·.expression ≠ "")).length ≤ 1)
'''
SPEC['Evidence'] = '''/-- The identities of an evidence: the list if it is set, and otherwise the single one. -/
def Evidence.writtenIdentities (x : Evidence) : PSlice EvidenceIdentity :=
  match x.identity with
  | none => .nil
  | some c =>
    match c.identities, c.identity with
    | .nil, some i => .list [i]
    | .nil, none => .nil
    | is, _ => is

/-- cyclonedx.go:{a}-{b}; something is written for it. -/
def Evidence.XWritten (x : Evidence) : Prop :=
  x.identity ≠ none ∨ x.occurrences ≠ .nil ∨ x.callstack ≠ none ∨ x.licenses ≠ .nil ∨ x.copyright ≠ .nil

/-- cyclonedx.go:{a}-{b} -/
def Evidence.XFits (v : Int) (x : Evidence) : Prop :=
  {evidence}
'''
SPEC['MLDatasetChoice'] = '''/-- cyclonedx.go:{a}-{b}; something is written for it. -/
def MLDatasetChoice.XWritten (x : MLDatasetChoice) : Prop := x.ref ≠ "" ∨ x.componentData ≠ none

/-- cyclonedx.go:{a}-{b}; a reference is written inside an element `dataset`, where the schema has it instead of that
element. -/
def MLDatasetChoice.XFits (v : Int) (x : MLDatasetChoice) : Prop :=
  x.ref = "" ∧ ∀ y ∈ x.componentData, ComponentData.XFits v y
'''
SPEC['AsserterChoice'] = '''/-- cyclonedx.go:{a}-{b}; something is written for it. -/
def AsserterChoice.XWritten (x : AsserterChoice) : Prop :=
  x.organization ≠ none ∨ x.individual ≠ none ∨ x.bomRef ≠ none

/-- cyclonedx.go:{a}-{b}; a reference is written as an attribute, where the schema has text. -/
def AsserterChoice.XFits (v : Int) (x : AsserterChoice) : Prop :=
  (∀ y ∈ x.organization, OrganizationalEntity.XFits v y) ∧ (∀ y ∈ x.individual, OrganizationalContact.XFits v y) ∧
  (x.organization = none → x.individual = none → x.bomRef = none)
'''
SPEC['DataClassification'] = '''/-- cyclonedx.go:{a}-{b}; a classification needs a flow. -/
def DataClassification.XFits (v : Int) (x : DataClassification) : Prop :=
  (x.flow = "" → x.classification = "") ∧ ∀ y ∈ x.governance, DataGovernance.XFits v y
'''
SPEC['Definitions'] = '''/-- cyclonedx.go:{a}-{b} and 606-609; the patent of a choice hides the family. -/
def Definitions.XFits (v : Int) (x : Definitions) : Prop :=
  (∀ y ∈ x.standards.elems, StandardDefinition.XFits v y) ∧
  (x.patents = .nil ∨ SpecVersion1_7 ≤ v ∧ ∀ y ∈ x.patents.elems,
    (∀ z ∈ y.patent, Patent.XFits v z) ∧ (y.patent = none → ∀ z ∈ y.patentFamily, PatentFamily.XFits v z))
'''
SPEC['Dependency'] = '''/-- cyclonedx.go:{a}-{b} -/
def Dependency.XFits (v : Int) (x : Dependency) : Prop := x.provides.elems = [] ∨ SpecVersion1_6 ≤ v
'''
SPEC['ToolsChoice'] = '''/-- cyclonedx.go:{a}-{b}; something is written for it. -/
def ToolsChoice.XWritten (x : ToolsChoice) : Prop := x.tools ≠ .nil ∨ x.components ≠ .nil ∨ x.services ≠ .nil

/-- cyclonedx.go:{a}-{b}; the form with components and services is declared from version 1.5 on. -/
def ToolsChoice.XFits (v : Int) (x : ToolsChoice) : Prop :=
  (∀ y ∈ x.tools.elems, Tool.XFits v y) ∧
  (x.components = .nil ∧ x.services = .nil ∨ SpecVersion1_5 ≤ v ∧
    (∀ y ∈ x.components.elems, Component.XFits v y) ∧ (∀ y ∈ x.services.elems, Service.XFits v y))
'''
EVF = [F('list', 'identity', None, True, 'EvidenceIdentity', 'x.writtenIdentities'),
       F('nlist', 'occurrences', 'occurrence', True, 'EvidenceOccurrence', 'x.occurrences'),
       F('ptr', 'callstack', None, True, 'Callstack', 'x.callstack'),
       F('slice', 'licenses', None, True, 'Licenses', 'x.licenses'),
       F('nlist', 'copyright', 'text', True, 'Copyright', 'x.copyright')]
TCF = [F('list', 'tool', None, True, 'Tool', 'p.1'),
       F('nlist', 'components', 'component', True, 'Component', 'p.2.1'),
       F('nlist', 'services', 'service', True, 'Service', 'p.2.2.1')]
def wrap(cs, ind='  '): return (' ∧\n' + ind).join(par(c) for c in cs)
def pat(fields, body): return ' '.join(f.name if re.search(r'\b' + f.name + r'\b', body) else '_' for f in fields)
def recbody(T):
    P = PLACES[T][0]
    cs = struct(gofields(T, ''), P)[0]
    body = wrap(cs, '    ')
    body = re.sub(r'\(?∀ y ∈ (\w+)\.elems, Component\.XFits v y\)?', r'XFitsComponents v \1', body)
    body = re.sub(r'\(?∀ y ∈ (\w+)\.elems, Service\.XFits v y\)?', r'XFitsServices v \1', body)
    body = re.sub(r'\(?∀ y ∈ (\w+), Pedigree\.XFits v y\)?', r'XFitsPedigreeOpt v \1', body)
    return body
def licconds():
    cs = conds('License', 'license')
    return [c for c in cs if 'x.id' not in c]
def spec():
    o = []; w = o.append
    w('''import Verif.Model.Types
import Verif.Model.Version

/-!
# The values that are written as the XML schema of a version declares

GENERATED by `tools/gen_xfits.py` from the struct declarations of `/repo/cyclonedx.go` and the XML schemas in
`/repo/schema`; do not edit by hand.

`T.XFits v x` says of the value `x` that the element written for it has only the attributes and elements that the
schema of version `v` declares, in the order it asks for, each as often as it allows, and all that it requires, at
any depth.  A field that no version declares must be empty; one declared since `u` must be empty or `u ≤ v`; one that
is required must not be empty.  Where the library writes the fields in another order than the schema has them, one of
the two must be empty.  Types without such conditions are left out.  It is stated on the values, without reference
to how they are written; `Verif.Xml.FitsLaws` proves that it is exact.
-/

namespace Verif
''')
    for n in ORDER:
        s = structs[n]
        if n in SPEC:
            w(SPEC[n].replace('{a}', str(s.a)).replace('{b}', str(s.b)).replace('{evidence}', wrap(kids(places['componentEvidence'][2], EVF)[0]) if n == 'Evidence' else '')); continue
        if n not in PLACES or n == 'Pedigree' or not nt(n): continue
        if n in IKE:
            cs = kids(places[PLACES[n][0]][2], gofields(n, skip=('bomRef',)))[0]
            w(f'''/-- cyclonedx.go:{s.a}-{s.b}; before version 1.7 only the reference is declared. -/
def {n}.XFits (v : Int) (x : {n}) : Prop :=
  x.bomRef.val ≠ "" ∨ {conj(cs)}
'''); continue
        if n == 'Component':
            b = recbody('Component'); pb = recbody('Pedigree')
            w(f'''mutual
/-- cyclonedx.go:{s.a}-{s.b} -/
def Component.XFits (v : Int) : Component → Prop
  | .mk {pat(s.fields, b)} =>
    {b}
/-- A list of components, at any depth. -/
def XFitsComponents (v : Int) : PSlice Component → Prop
  | .nil => True
  | .nilSlice => True
  | .list xs => XFitsComponentList v xs
/-- A list of components, at any depth. -/
def XFitsComponentList (v : Int) : List Component → Prop
  | [] => True
  | c :: cs => c.XFits v ∧ XFitsComponentList v cs
/-- An optional pedigree. -/
def XFitsPedigreeOpt (v : Int) : Option (Pedigree Component) → Prop
  | none => True
  | some p => XFitsPedigree v p
/-- cyclonedx.go:{structs["Pedigree"].a}-{structs["Pedigree"].b} -/
def XFitsPedigree (v : Int) : Pedigree Component → Prop
  | .mk {pat(structs['Pedigree'].fields, pb)} =>
    {pb}
end
'''); continue
        if n == 'Service':
            b = recbody('Service')
            w(f'''mutual
/-- cyclonedx.go:{s.a}-{s.b} -/
def Service.XFits (v : Int) : Service → Prop
  | .mk {pat(s.fields, b)} =>
    {b}
/-- A list of services, at any depth. -/
def XFitsServices (v : Int) : PSlice Service → Prop
  | .nil => True
  | .nilSlice => True
  | .list xs => XFitsServiceList v xs
/-- A list of services, at any depth. -/
def XFitsServiceList (v : Int) : List Service → Prop
  | [] => True
  | c :: cs => c.XFits v ∧ XFitsServiceList v cs
end
'''); continue
        cs = licconds() if n == 'License' else conds(n, PLACES[n][0])
        assert len({tuple(conds(n, p)) for p in PLACES[n] if (n, p) not in HANDFALSE}) == 1, n
        vv = 'v' if re.search(r'\bv\b', ' '.join(cs)) else '_v'
        w(f'''/-- cyclonedx.go:{s.a}-{s.b} -/
def {n}.XFits ({vv} : Int) (x : {n}) : Prop :=
  {wrap(cs)}
''')
    w('end Verif')
    return '\n'.join(o) + '\n'

# --- proofs ------------------------------------------------------------------------------------------------------
SIMP = 'and_true, true_and, and_assoc, implies_true, ne_eq, or_false, false_or'
def laws():
    o = [open(HERE + '/xfits_head.txt').read()]; w = o.append
    hand = {}
    for part in open(HERE + '/xfits_hand.txt').read().split('-- @@ ')[1:]:
        nm, _, body = part.partition('\n'); hand[nm.strip()] = body
    for n in ORDER:
        s = structs[n]; k = cname(n)
        if n in hand:
            w(re.sub(r'@\{([^}]*)\}', lambda m: eval(m.group(1)), hand[n])); continue
        if n in IKE:
            w(f'''theorem xfit_{k} (v : Int) (n : String) (x : {n}) :
    CFit v .{PLACES[n][0]} X.{k} n x True (x.XFits v) := by
  refine (xfit_ike (F := X.{k}Fields) rfl {struct(gofields(n, skip=("bomRef",)), PLACES[n][0])[1][len("cf_struct "):]}).congr ?_
  simp only [{n}.XFits, {n}.toP, {SIMP}]
'''); continue
        if n not in PLACES: continue
        if n in CUSTOM: print('missing', n); continue
        for p in PLACES[n]:
            if (n, p) in HANDFALSE:
                w(f'''theorem xfit_{k}_{p} (v : Int) (n : String) (x : {n}) : CFit v .{p} X.{k} n x True False :=
  cf_false ({hand_false(n, p)})
'''); continue
            cs, t = struct(gofields(n), p)
            P = f'(x.XFits v)' if cs else 'True'
            fin = f'{n}.XFits, ' if cs else ''
            w(f'''theorem {fitname(n, p)} (v : Int) (n : String) (x : {n}) : CFit v .{p} X.{"bom" if n == "BOM" else k} n x True {P} := by
  refine ({t}).congr ?_
  simp only [{fin}{n}.toP, {SIMP}]
''')
    w('end Verif')
    return '\n'.join(o) + '\n'
def hand_false(n, p):
    out = []
    for f in gofields(n):
        if f.kind == 'attr': out.append('aa_never rfl <|')
        elif f.kind == 'chardata': out.append('af_chardata <|')
        else: assert False
    return ' '.join(out) + ' af_nil'
if __name__ == '__main__':
    open('/verif/lean/Verif/Spec/XmlFits.lean', 'w').write(spec())
    open('/verif/lean/Verif/Xml/FitsLaws.lean', 'w').write(laws())
