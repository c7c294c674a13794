#!/usr/bin/env python3
"""Generates lean/Verif/Spec/BomRefs.lean (the identifiers in a value), lean/Verif/Json/RefLaws.lean and
lean/Verif/Xml/RefLaws.lean (that these are the ones written) and lean/Verif/Proofs/RefsCopied.lean (that the deep copy
keeps them)."""
import os, re, sys
sys.path.insert(0, os.path.dirname(__file__))
from gostructs import structs, named
from gen_types import ORDER
from gen_plain import slice_elem
from gen_json import cname, IKE
from gen_xml import field as xfield, CUSTOM as XCUSTOM, NONE as XNONE, SELF
HERE = os.path.dirname(os.path.abspath(__file__))
REC = {('Component', 'Component'), ('Pedigree', 'Component'), ('Component', 'Pedigree'), ('Service', 'Service')}
CHOICE = {'MLDatasetChoice', 'AsserterChoice', 'PatentChoice'}
NOREFS = set(IKE)

def base(f): return slice_elem(f.ty) or f.ty.lstrip('*')
HAS = {}
def has(t):
    if t not in structs or t in NOREFS: return False
    if t not in HAS:
        HAS[t] = False
        HAS[t] = any(isref(f) or has(base(f)) for f in structs[t].fields)
    return HAS[t]
def isref(f): return (f.json or '').split(',')[0] == 'bom-ref'
def val(f, x):
    """the identifiers in a field, or None"""
    v = f'{x}.{f.name}' if x else f.name
    if isref(f):
        assert 'omitempty' in f.json and f.ty in ('string', 'BOMReference')
        return f'ident {v}' + ('.val' if f.ty == 'BOMReference' else '')
    b = base(f)
    if not has(b): return None
    if slice_elem(f.ty): return f'{v}.elems.flatMap {b}.bomRefs'
    if f.ty.startswith('*'): return f'{v}.toList.flatMap {b}.bomRefs'
    return f'{v}.bomRefs'
FORMAT = {('LicenseChoice', 'expressionDetails'): 'onlyJSON ({})', ('LicenseChoice', 'licensing'): 'onlyJSON ({})',
          ('LicenseChoice', 'bomRef'): 'withText x.expression ({})'}
def vals(T, x='x'): return [(f, FORMAT.get((T, f.name), '{}').format(val(f, x))) for f in structs[T].fields if val(f, x)]
def cat(xs): return ' ++\n    '.join(xs) if xs else '[]'
def pat(fields, body): return ' '.join(f.name if re.search(r'\b' + f.name + r'\b', body) else '_' for f in fields)
def recbody(T):
    b = cat([v for _, v in vals(T, '')])
    b = re.sub(r'(\w+)\.elems\.flatMap Component\.bomRefs', r'refsComponents \1', b)
    b = re.sub(r'(\w+)\.elems\.flatMap Service\.bomRefs', r'refsServices \1', b)
    b = re.sub(r'(\w+)\.toList\.flatMap Pedigree\.bomRefs', r'refsPedigreeOpt \1', b)
    return b

def spec():
    o = []; w = o.append
    w(open(HERE + '/refs_spec.txt').read())
    for n in ORDER:
        s = structs[n]
        if not has(n) or n == 'Pedigree': continue
        if n == 'Component':
            b, pb = recbody(n), recbody('Pedigree'); p = structs['Pedigree']
            w(f'''mutual
/-- cyclonedx.go:{s.a}-{s.b} -/
def Component.bomRefs : Component → List String
  | .mk {pat(s.fields, b)} =>
    {b}
/-- A list of components. -/
def refsComponents : PSlice Component → List String
  | .nil => []
  | .nilSlice => []
  | .list xs => refsComponentList xs
/-- A list of components. -/
def refsComponentList : List Component → List String
  | [] => []
  | c :: cs => c.bomRefs ++ refsComponentList cs
/-- An optional pedigree. -/
def refsPedigreeOpt : Option (Pedigree Component) → List String
  | none => []
  | some p => refsPedigree p
/-- cyclonedx.go:{p.a}-{p.b} -/
def refsPedigree : Pedigree Component → List String
  | .mk {pat(p.fields, pb)} =>
    {pb}
end
'''); continue
        if n == 'Service':
            b = recbody(n)
            w(f'''mutual
/-- cyclonedx.go:{s.a}-{s.b} -/
def Service.bomRefs : Service → List String
  | .mk {pat(s.fields, b)} =>
    {b}
/-- A list of services. -/
def refsServices : PSlice Service → List String
  | .nil => []
  | .nilSlice => []
  | .list xs => refsServiceList xs
/-- A list of services. -/
def refsServiceList : List Service → List String
  | [] => []
  | c :: cs => c.bomRefs ++ refsServiceList cs
end
'''); continue
        if n in CHOICE:
            body = {'MLDatasetChoice': 'if x.ref = "" then x.componentData.toList.flatMap ComponentData.bomRefs else []',
                    'AsserterChoice': '''match x.organization with
  | some o => o.bomRefs
  | none => x.individual.toList.flatMap OrganizationalContact.bomRefs''',
                    'PatentChoice': '''match x.patent with
  | some p => p.bomRefs
  | none => x.patentFamily.toList.flatMap PatentFamily.bomRefs'''}[n]
            w(f'''/-- cyclonedx.go:{s.a}-{s.b}; one alternative hides the others. -/
def {n}.bomRefs (x : {n}) : List String :=
  {body}
'''); continue
        w(f'''/-- cyclonedx.go:{s.a}-{s.b} -/
def {n}.bomRefs (x : {n}) : List String :=
  {cat([v for _, v in vals(n)])}
''')
    w('''/-- The identifiers in a BOM, as far as JSON has a place for them. -/
def BOM.jsonRefs (b : BOM) : List String := BOM.bomRefs (w := .json) b

/-- The identifiers in a BOM, as far as XML has a place for them. -/
def BOM.xmlRefs (b : BOM) : List String := BOM.bomRefs (w := .xml) b

end Verif''')
    return '\n'.join(o) + '\n'

SC = {'string': 'string', 'bool': 'bool', 'int': 'int', 'float32': 'f32', 'float64': 'f64', 'BOMReference': 'bomReference', 'SpecVersion': 'specVersion'}
def sname(t): return SC.get(t) or ('string' if t in named else None)
def elemlaw(t, pre): return f'{pre}_{sname(t)}' if sname(t) else f'{pre}_{cname(t)}'
def jterm(T):
    out = []
    for f in structs[T].fields:
        if f.json == '-': out.append('rj_skip'); continue
        if isref(f): out.append('rj_ref' + ('' if f.ty == 'string' else '_val')); continue
        b = base(f); rec = (T, b) in REC
        law = f'h_{f.name}' if rec else f'(fun a _ => {elemlaw(b, "refs")} a)'
        some = has(b)
        if slice_elem(f.ty): t = f'rf_list {law}' if some else f'rf_list_nil {law}'
        elif f.ty.startswith('*'): t = f'rf_opt {law}' if some else f'rf_opt_nil {law}'
        elif b in structs: t = f'rf_val rfl ({elemlaw(b, "refs")} _)'
        else: t = f'rf_nil ({elemlaw(b, "refs")} _)'
        out.append(f'{"rj_field" if some else "rj_plain"} (by decide) ({t})')
    return ' <|\n    '.join(out + ['rj_nil'])

def hands(name):
    h = {}
    for part in open(HERE + '/' + name).read().split('-- @@ ')[1:]:
        nm, _, body = part.partition('\n'); h[nm.strip()] = body
    return h
SIMP = 'List.append_nil, List.nil_append, List.append_assoc'
def jlaws():
    hand = hands('refs_json_hand.txt')
    o = [hand.pop('HEAD')]; w = o.append
    for n in ORDER:
        k = cname(n)
        if n in hand: w(hand[n].replace('@FIELDS', jterm(n))); continue
        if n in IKE:
            w(f'''theorem refs_{k} (x : {n}) : RefC J.{k} x [] := by
  refine rc_ike ((rc_struct (
    {jterm(n)})).eq ?_)
  simp only [{SIMP}]
'''); continue
        L = f'x.bomRefs' if has(n) else '[]'
        d = f'{n}.bomRefs, {n}.toP, ' if has(n) else ''
        if n == 'LicenseChoice': d += 'onlyJSON, withText, '
        w(f'''theorem refs_{k} (x : {n}) : RefC J.{k} x {L} := by
  refine (rc_struct (
    {jterm(n)})).eq ?_
  simp only [{d}{SIMP}]
''')
    w('end Verif')
    return '\n'.join(o) + '\n'

# --- the deep copy ---------------------------------------------------------------------------------------------
def copied():
    hand = hands('refs_copy_hand.txt')
    o = [hand.pop('HEAD')]; w = o.append
    for n in ORDER:
        if not has(n) or n == 'Pedigree': continue
        if n in hand: w(hand[n]); continue
        laws = sorted({f'{base(f)}.refs_copy' for f, _ in vals(n) if not isref(f)})
        w(f'''theorem {n}.refs_copy (x : {n}) : x.copy.bomRefs = x.bomRefs := by
  simp only [{n}.bomRefs, {n}.copy, refs_copyWith, refs_copyOpt{''.join(', ' + l for l in laws)}]
''')
    w('end Verif')
    return '\n'.join(o) + '\n'

# --- XML ---------------------------------------------------------------------------------------------------------
def xterms(T, skip=()):
    A, K = [], []
    for f in structs[T].fields:
        if f.name in skip: continue
        k, e = xfield(T, f)
        some = val(f, 'x') is not None
        if k == 'skip':
            A.append('xa_skip'); K.append(f"xk_skip_refs ({val(f, 'x')})" if some else 'xk_skip'); continue
        if k in ('attr', 'attrPtr'):
            if isref(f): A.append('xa_ref' + ('' if f.ty == 'string' else '_val'))
            else: A.append(f'xa_{k} (by decide)')
            K.append(f'xk_{k}'); continue
        if k == 'chardata': A.append('xa_chardata'); K.append('xk_chardata'); continue
        A.append('xa_elem')
        kind = re.match(r'\.elem \(\.(\w+)', e).group(1)
        b = base(f)
        rec = (T, b) in REC
        if kind == 'slice':
            t = 'xf_slice (xrefs_licenses _)' if has(b) else 'xf_slice_nil (xrefs_environmentVariables _)'
        else:
            law = (f'h_{f.name}' if rec else f'(fun a _ => {elemlaw(b, "xrefs")} a)')
            if kind == 'plain': law = f'({elemlaw(b, "xrefs")} _)'
            t = f'xf_{kind}{"" if some or kind == "plain" else "_nil"} {law}'
            if rec and kind in ('list', 'nlist'): t += ' (fun a _ h => by simp [hC] at h)'
        K.append(f'{"xk_elem" if some else "xk_plain"} ({t})')
    return ' <|\n    '.join(A + ['xa_nil']), ' <|\n    '.join(K + ['xk_nil'])
def xlaws():
    hand = hands('refs_xml_hand.txt')
    o = [hand.pop('HEAD')]; w = o.append
    for n in ORDER:
        k = cname(n)
        if n in IKE:
            A, K = xterms(n, ('bomRef',))
            w(f'''theorem xrefs_{k} (x : {n}) : XRefC X.{k} x [] := by
  refine xc_ike (F := X.{k}Fields) (
    {A}) (
    {K})
'''); continue
        A, K = xterms(n) if n in structs else ('', '')
        if n in hand: w(hand[n].replace('@A', A).replace('@K', K)); continue
        if n in XNONE: continue
        assert n not in XCUSTOM, n
        L = f'x.bomRefs' if has(n) else '[]'
        d = f'{n}.bomRefs, {n}.toP, ' if has(n) else ''
        w(f'''theorem xrefs_{k} (x : {n}) : XRefC X.{k} x {L} := by
  refine (xc_struct (
    {A}) (
    {K})).eq ?_
  simp only [{d}{SIMP}]
''')
    w('end Verif')
    return '\n'.join(o) + '\n'
if __name__ == '__main__':
    L = '/verif/lean/Verif/'
    open(L + 'Spec/BomRefs.lean', 'w').write(spec())
    if 'j' in sys.argv or len(sys.argv) == 1: open(L + 'Json/RefLaws.lean', 'w').write(jlaws())
    if 'c' in sys.argv or len(sys.argv) == 1: open(L + 'Proofs/RefsCopied.lean', 'w').write(copied())
    if 'x' in sys.argv or len(sys.argv) == 1: open(L + 'Xml/RefLaws.lean', 'w').write(xlaws())
