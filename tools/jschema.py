"""Reads the JSON schemas of /repo/schema (as text) and merges the six versions 1.2 ... 1.7 into one grammar of
places: which kinds of values may stand where, and since which version.  Used by gen_jschema.py."""
import json
SRC = '/repo/schema/'
def load(v):
    return json.load(open(SRC + (f'bom-1.{v}-strict.schema.json' if v in (2, 3) else f'bom-1.{v}.schema.json')))
VERSIONS = range(2, 8)
DOC = {v: load(v) for v in VERSIONS}
JSF = json.load(open(SRC + 'jsf-0.82.schemax.json'))

STRING = {'type': 'string'}
def deref(n, doc):
    """the alternatives of a schema node, as (document, node, name of the definition or None)"""
    if n is True or n is False: return []
    if '$ref' in n:
        f, _, frag = n['$ref'].partition('#')
        # spdx.schema.json and cryptography-defs.schema.json: enumerations of strings
        if f and not f.startswith('jsf'): return [(doc, STRING, None)]
        d2 = JSF if f else doc
        m = d2
        for p in frag.strip('/').split('/'):
            if p: m = m[p]
        nm = frag.split('/')[-1] if frag.startswith('/definitions/') else None
        return [(d, x, nm or k) for d, x, k in deref(m, d2)]
    out = []
    if any(k in n for k in ('type', 'properties', 'items', 'enum', 'const')): out.append((doc, n, None))
    for k in ('anyOf', 'oneOf', 'allOf'):
        for m in n.get(k, []):
            if set(m) <= {'required', 'not', 'title', 'description'}: continue
            out += deref(m, doc)
    for k in ('then', 'else'):
        if k in n: out += deref(n[k], doc)
    return out
def types(n):
    t = n.get('type')
    if t is None:
        if 'properties' in n: return ['object']
        if 'items' in n: return ['array']
        return ['string'] # enum / const
    return t if isinstance(t, list) else [t]

# --- merging ------------------------------------------------------------------------------------------------
# A state is {version: [alternatives]}.  Every object schema is a place; a merged schema is a nested tuple:
#   ('str',) ('num',) ('int',) ('bool',) ('list', s) ('alt', [s..]) ('since', v, s) ('place', name)
places = {}        # name -> [(member, schema)]
states = {}        # name -> {version: [alternatives]}, everything met under that name
notes = []
changed = [False]
def cap(s): return s[0].upper() + s[1:]
def place(st, parent):
    """the place of the object alternatives: named after the definition they come from, else after the path"""
    names = {nm for _, _, nm in st[max(st)]}
    nm = names.pop() if len(names) == 1 and None not in names else parent
    S = states.setdefault(nm, {})
    for v, alts in st.items():
        for a in alts:
            if all(a[1] is not x[1] for x in S.setdefault(v, [])): S[v].append(a); changed[0] = True
    return nm
def merge(st, path):
    first = min(st)
    def sel(kind): return {v: r for v in st for r in [[a for a in st[v] if kind in types(a[1])]] if r}
    alts = []
    def add(sub, what, s):
        exp = [v for v in st if v >= min(sub)]
        if sorted(sub) != sorted(exp): notes.append(('GONE', path, what, sorted(sub)))
        alts.append(s if min(sub) == first else ('since', min(sub), s))
    for kind, tag in (('string', 'str'), ('number', 'num'), ('integer', 'int'), ('boolean', 'bool')):
        sub = sel(kind)
        if sub: add(sub, kind, (tag,))
    arr = sel('array')
    if arr:
        sub = {}
        for v in arr:
            its = []
            for d, n, _ in arr[v]:
                i = n.get('items', [])
                for i in (i if isinstance(i, list) else [i]): its += deref(i, d)
            if its: sub[v] = dedup(its)
            else: notes.append(('NOITEMS', path, v))
        add(arr, 'array', ('list', merge(sub, path + 'Item')))
    obj = sel('object')
    if obj: add(obj, 'object', ('place', place(obj, path)))
    if not alts: notes.append(('EMPTY', path))
    return alts[0] if len(alts) == 1 else ('alt', alts)
def members(st, name):
    props = {}
    for v in sorted(st, reverse=True):
        for d, n, _ in st[v]:
            if 'patternProperties' in n: notes.append(('PATTERN', name, v))
            for k, m in n.get('properties', {}).items():
                a = deref(m, d)
                if a: props.setdefault(k, {}).setdefault(v, []).extend(a)
    ps = []
    for k, sub in props.items():
        sub = {v: dedup(a) for v, a in sub.items()}
        if sorted(sub) != sorted(v for v in st if v >= min(sub)): notes.append(('GONE', name, k, sorted(sub)))
        s = merge(sub, name + cap(k))
        ps.append((k, s if min(sub) == min(st) else ('since', min(sub), s)))
    return ps
def dedup(a):
    seen, out = set(), []
    for x in a:
        if id(x[1]) not in seen: seen.add(id(x[1])); out.append(x)
    return out
def rename(s, m):
    if s[0] == 'place': return ('place', m.get(s[1], s[1]))
    if s[0] == 'list': return ('list', rename(s[1], m))
    if s[0] == 'since': return ('since', s[1], rename(s[2], m))
    if s[0] == 'alt': return ('alt', [rename(x, m) for x in s[1]])
    return s
place({v: deref(DOC[v], DOC[v]) for v in VERSIONS}, 'bom')
while True:
    changed[0] = False
    for nm in list(states): places[nm] = members(states[nm], nm)
    if not changed[0]: break
# shorter names for the places that are not definitions of the schema; equal ones become one
DEFS = {k for v in VERSIONS for k in DOC[v]['definitions']} | set(JSF['definitions'])
while True:
    seen, m = {}, {}
    for nm in places:
        k = str(places[nm])
        if k in seen and nm not in DEFS: m[nm] = seen[k]
        elif nm not in DEFS or k not in seen: seen[k] = nm
    if not m: break
    for a in m: del places[a]
    places = {k: [(n, rename(s, m)) for n, s in ps] for k, ps in places.items()}
NAMES = {'metadataLicensesItem': 'licenseChoice', 'componentPatentAssertionsItem': 'patentAssertion',
  'metadataLicensesItemExpressionDetailsItem': 'expressionDetail', 'licensingLicensor': 'organizationOrIndividual',
  'componentPatentAssertionsItemAsserter': 'asserter', 'metadataTools': 'tools',
  'bomDefinitionsPatentsItem': 'patentOrFamily', 'bomDefinitionsPatentsItemPatentAssigneeItem': 'patentAssignee',
  'cryptoPropertiesCertificatePropertiesCertificateStateItem': 'certificateState',
  'cryptoPropertiesCertificatePropertiesCertificateExtensionsItem': 'certificateExtension',
  'cryptoPropertiesProtocolPropertiesIkev2TransformTypes': 'ikev2TransformTypes',
  'modelCardModelParametersDatasetsItem': 'modelDataset', 'bomDeclarationsAttestationsItemMapItem': 'attestationMap',
  'bomDeclarationsEvidenceItemDataItem': 'evidenceData', 'bomDeclarationsEvidenceItemDataItemContents': 'evidenceDataContents',
  'vulnerabilityAffectsItemVersionsItem': 'affectedVersions'}
def short(n):
    if n in NAMES: return NAMES[n]
    if n in DEFS: return n
    for p in ('bomDeclarationsAttestationsItemMapItem', 'bomDeclarationsAttestationsItemMap', 'bomDeclarations', 'bomDefinitions', 'cryptoProperties', 'vulnerabilityAffectsItem'):
        if n.startswith(p) and n != p: n = n[len(p):]; break
    n = n[0].lower() + n[1:]
    return n[:-4] if n.endswith('Item') else n
m = {n: short(n) for n in places}
assert len(set(m.values())) == len(m), [k for k in m.values() if list(m.values()).count(k) > 1]
places = {m[k]: [(n, rename(s, m)) for n, s in ps] for k, ps in places.items()}

# --- check: at every version the merged grammar declares exactly what the schema of that version declares -----
def at(s, v):
    """the kinds of values, the element schema and the place that the merged schema s allows at v"""
    if s[0] == 'since': return at(s[2], v) if s[1] <= v else ({}, [], [])
    if s[0] == 'alt':
        r = [at(x, v) for x in s[1]]
        return ({k for a, _, _ in r for k in a}, [x for _, l, _ in r for x in l], [x for _, _, o in r for x in o])
    if s[0] == 'list': return ({}, [s[1]], [])
    if s[0] == 'place': return ({}, [], [s[1]])
    return ({s[0]}, [], [])
KIND = {'string': 'str', 'number': 'num', 'integer': 'int', 'boolean': 'bool'}
def check(v):
    done = set()
    todo = [(('place', 'bom'), deref(DOC[v], DOC[v]), '')]
    while todo:
        s, alts, path = todo.pop()
        ks, ls, os = at(s, v)
        assert set(ks) == {KIND[t] for _, n, _ in alts for t in types(n) if t in KIND}, (v, path)
        arr = [a for a in alts if 'array' in types(a[1])]; obj = [a for a in alts if 'object' in types(a[1])]
        assert bool(ls) == bool(arr) and bool(os) == bool(obj) and len(ls) <= 1 and len(os) <= 1, (v, path)
        if ls:
            its = []
            for d, n, _ in arr:
                i = n.get('items', [])
                for i in (i if isinstance(i, list) else [i]): its += deref(i, d)
            if its: todo.append((ls[0], its, path + '[]'))
        if os:
            k = (os[0], tuple(sorted({id(n) for _, n, _ in obj})))
            if k in done: continue
            done.add(k)
            props = {}
            for d, n, _ in obj:
                for p, x in n.get('properties', {}).items():
                    a = deref(x, d)
                    if a: props.setdefault(p, []).extend(a)
            mine = {p: x for p, x in places[os[0]] if x[0] != 'since' or x[1] <= v}
            assert set(props) == set(mine), (v, path, os[0], set(props) ^ set(mine))
            for p in props: todo.append((mine[p], props[p], path + '.' + p))
for v in VERSIONS: check(v)
if __name__ == '__main__':
    for n in dict.fromkeys(map(str, notes)): print(n)
    def show(s):
        if s[0] == 'list': return '[' + show(s[1]) + ']'
        if s[0] == 'alt': return '(' + ' | '.join(map(show, s[1])) + ')'
        if s[0] == 'since': return f'@{s[1]} ' + show(s[2])
        if s[0] == 'place': return '#' + s[1]
        return s[0]
    for k, b in places.items(): print(k, '=', ', '.join(n + ': ' + show(s) for n, s in b))
