"""Reads the XML schemas of /repo/schema (as text) and merges the eight versions 1.0 ... 1.7 into one table of
places: which attributes and which content an element may have, and from which version on.  Used by
gen_xschema.py."""
import xml.etree.ElementTree as ET
XS = '{http://www.w3.org/2001/XMLSchema}'
VERSIONS = range(0, 8)
ROOT = {v: ET.parse(f'/repo/schema/bom-1.{v}.xsd').getroot() for v in VERSIONS}
INF = 10 ** 9
def tag(e): return e.tag.replace(XS, '')
GLOBAL = {v: {} for v in VERSIONS}
for v in VERSIONS:
    for e in ROOT[v]:
        if tag(e) in ('complexType', 'attributeGroup'): GLOBAL[v][e.get('name')] = e
TEXT = 'text'      # the node of a simple type

# --- one schema ---------------------------------------------------------------------------------------------
# content: ('empty',) ('el', name, node) ('seq', [..]) ('choice', [..]) ('opt', p) ('many', p) ('some', p)
def occ(p, mn, mx):
    if p == ('empty',): return p
    k = p[0]
    if (mn, mx) == (1, 1): return p
    if (mn, mx) == (0, 1): return p if k in ('opt', 'many') else ('many', p[1]) if k == 'some' else ('opt', p)
    assert mx == INF and mn <= 1, (p, mn, mx)
    if k in ('opt', 'many'): return ('many', p[1])
    if k == 'some': return ('many', p[1]) if mn == 0 else p
    if k == 'choice' and any(q[0] in ('opt', 'many') for q in p[1]):
        return ('many', ('choice', [q[1] if q[0] in ('opt', 'many') else q for q in p[1]]))
    return ('many', p) if mn == 0 else ('some', p)
def particle(e, v):
    mn = int(e.get('minOccurs', '1')); mx = e.get('maxOccurs', '1'); mx = INF if mx == 'unbounded' else int(mx)
    t = tag(e)
    if t == 'element':
        assert e.get('ref') is None
        return occ(('el', e.get('name'), (node(e, v))), mn, mx)
    if t in ('sequence', 'choice'):
        t = {'sequence': 'seq'}.get(t, t)
        ps = []
        for c in e:
            if tag(c) in ('annotation', 'any'): continue
            q = particle(c, v)
            if q == ('empty',): continue
            if q[0] == t: ps += q[1]
            else: ps.append(q)
        if not ps: return ('empty',)
        return occ(ps[0] if len(ps) == 1 else (t, ps), mn, mx)
    raise Exception(t)
def node(e, v):
    """the type of an element: (type node or TEXT, name or None)"""
    ty = e.get('type')
    if ty is None:
        ct = e.find(XS + 'complexType')
        return (ct, None) if ct is not None else (TEXT, None)
    if ty.startswith('bom:') and ty[4:] in GLOBAL[v]: return (GLOBAL[v][ty[4:]], ty[4:])
    return (TEXT, None)
def read(n, v):
    """(attributes {name: required}, mixed, content) of a type"""
    if n is TEXT: return ({}, True, ('empty',))
    attrs = {}; body = ('empty',); mixed = n.get('mixed') == 'true'
    def go(e):
        nonlocal body, mixed
        for x in e:
            t = tag(x)
            if t in ('annotation', 'anyAttribute'): pass
            elif t == 'simpleContent': mixed = True; go(x)
            elif t == 'extension': go(x)
            elif t == 'attribute': attrs[x.get('name')] = x.get('use') == 'required'
            elif t == 'attributeGroup': go(GLOBAL[v][x.get('ref')[4:]])
            elif t in ('sequence', 'choice'): assert body == ('empty',); body = particle(x, v)
            else: raise Exception(t)
    go(n)
    return (attrs, mixed, body)

# --- merging ------------------------------------------------------------------------------------------------
# merged content: the same, with places instead of nodes, and ('from', v, old, new)
states = {}        # place -> {version: node}
changed = [False]
def cap(s): return s[0].upper() + s[1:]
def place(nodes, path):
    if all(n is TEXT for n, _ in nodes.values()): return 'text'
    nm = nodes[max(nodes)][1] or path
    S = states.setdefault(nm, {})
    for v, (n, _) in nodes.items():
        if v not in S: S[v] = n; changed[0] = True
        assert S[v] is n or read(S[v], v)[0] == read(n, v)[0] and shape(read(S[v], v)[2]) == shape(read(n, v)[2]), (nm, v)
    return nm
def shape(p):
    if p[0] == 'el': return ('el', p[1])
    if p[0] in ('seq', 'choice'): return (p[0], [shape(q) for q in p[1]])
    return (p[0], shape(p[1])) if p[0] in ('opt', 'many', 'some') else p
def names(p):
    if p[0] == 'el': return [p[1]]
    if p[0] in ('seq', 'choice'): return [n for q in p[1] for n in names(q)]
    if p[0] == 'from': return list(dict.fromkeys(names(p[2]) + names(p[3])))
    return names(p[1]) if p[0] in ('opt', 'many', 'some') else []
def switch(by):
    """{version: merged content} as nested 'from'"""
    vs = sorted(by); r = by[vs[0]]
    for v in vs[1:]:
        last = r[3] if r[0] == 'from' else r
        if by[v] != last: r = ('from', v, r, by[v])
    return r
def merge(st, path):
    """{version: content} -> merged content"""
    sh = [st[v] for v in st]
    if all(p[0] == 'seq' or len(set(names(p))) <= 1 or p[0] in ('opt', 'choice') for p in sh) and any(p[0] == 'seq' for p in sh):
        # align the items by the names in them
        its = {v: (p[1] if p[0] == 'seq' else [] if p == ('empty',) else [p]) for v, p in st.items()}
        last = max(st); order = []
        for v in sorted(st, reverse=True):
            pos = 0
            for it in its[v]:
                k = [i for i, o in enumerate(order) if set(o) & set(names(it))]
                assert len(k) <= 1, (path, v, order, it)
                if k:
                    assert k[0] >= pos, ('ORDER', path, v, names(it))
                    order[k[0]] = sorted(set(order[k[0]]) | set(names(it))); pos = k[0] + 1
                else: order.insert(pos, names(it)); pos += 1
        out = []
        for o in order:
            by = {}
            for v in st:
                m = [it for it in its[v] if set(names(it)) & set(o)]
                assert len(m) <= 1
                by[v] = m[0] if m else ('empty',)
            out.append(merge(by, path))
        return out[0] if len(out) == 1 else ('seq', out)
    # elements that the same name leads to in the same way
    kinds = {p[0] for p in sh}
    if len(kinds) == 1 and kinds <= {'opt', 'many', 'some'}:
        return (sh[0][0], merge({v: p[1] for v, p in st.items()}, path))
    def same(p, v):
        """the content at v with places"""
        if p[0] == 'el':
            ns = {w: x for w in st for x in els(st[w], p[1])}
            return ('el', p[1], place(ns, path + cap(p[1])))
        if p[0] in ('seq', 'choice'): return (p[0], [same(q, v) for q in p[1]])
        if p[0] in ('opt', 'many', 'some'): return (p[0], same(p[1], v))
        return p
    return switch({v: same(p, v) for v, p in st.items()})
def els(p, n):
    if p[0] == 'el': return [p[2]] if p[1] == n else []
    if p[0] in ('seq', 'choice'): return [x for q in p[1] for x in els(q, n)]
    return els(p[1], n) if p[0] in ('opt', 'many', 'some') else []
def build(nm):
    S = states[nm]
    R = {v: read(S[v], v) for v in S}
    attrs = []
    for a in dict.fromkeys(a for v in sorted(S) for a in R[v][0]):
        vs = [v for v in sorted(S) if a in R[v][0]]
        assert vs == [v for v in sorted(S) if v >= vs[0]], (nm, a, vs)
        assert len({R[v][0][a] for v in vs}) == 1, ('REQ', nm, a)
        attrs.append((a, None if vs[0] == min(S) else vs[0], R[vs[0]][0][a]))
    assert len({R[v][1] for v in S}) == 1, ('MIXED', nm)
    return (attrs, R[max(S)][1], merge({v: R[v][2] for v in S}, nm))
bomNode = {}
for v in VERSIONS:
    e = [e for e in ROOT[v] if tag(e) == 'element' and e.get('name') == 'bom'][0]
    bomNode[v] = (e.find(XS + 'complexType'), None)
place(bomNode, 'bom')
places = {}
while True:
    changed[0] = False
    for nm in list(states): places[nm] = build(nm)
    if not changed[0]: break
# --- places with the same declaration are one place; short names ---------------------------------------------
def subst(p, ren):
    if p[0] == 'el': return ('el', p[1], ren.get(p[2], p[2]))
    if p[0] in ('seq', 'choice'): return (p[0], [subst(q, ren) for q in p[1]])
    if p[0] == 'from': return ('from', p[1], subst(p[2], ren), subst(p[3], ren))
    return (p[0], subst(p[1], ren)) if p[0] in ('opt', 'many', 'some') else p
def rename(ren):
    global places
    places = {ren.get(k, k): (a, m, subst(b, ren)) for k, (a, m, b) in places.items() if ren.get(k, k) == k or ren[k] not in places}
while True:
    by = {}
    for k, x in places.items(): by.setdefault(repr(x), []).append(k)
    ren = {k: min(ks, key=lambda k: (len(k), k)) for ks in by.values() if len(ks) > 1 for k in ks}
    if not ren: break
    rename({k: n for k, n in ren.items() if k != n})
PREFIX = ['cryptoPropertiesType', 'modelCardType', 'componentEvidenceType', 'declarationsType', 'vulnerabilityType', 'RelatedCryptoMaterialProperties',
          'ModelParameters', 'QuantitativeAnalysis', 'Considerations', 'ProtocolProperties', 'CertificateProperties', 'Attestations', 'Assessors',
          'Claims', 'Evidence', 'releaseNotesType', 'Affects', 'Callstack', 'Identity', 'AttestationMap', 'graphicsCollectionType', 'Collection',
          'standardRequirements', 'standardLevels', 'metadata', 'componentDataType', 'serviceData', 'licensingType', 'compositionType', 'Occurrences',
          'Ikev2TransformTypes', 'CertificateExtensions', 'CipherSuites', 'PerformanceMetrics', 'EthicalConsiderations', 'FairnessAssessments',
          'Affirmation', 'Signatories', 'patentAssertionType', 'triggerType', 'stepType', 'RelatedCryptographicAssets', 'Inputs', 'Outputs']
def low(s): return s[0].lower() + s[1:]
def short(k):
    s = k
    while True:
        for p in PREFIX:
            if s.startswith(p) and len(s) > len(p) and s[len(p)].isupper(): s = s[len(p):]; break
        else: break
    if s.endswith('Type'): s = s[:-4]
    return low(s)
def shorten():
    taken = {}
    for k in places: taken.setdefault(short(k), []).append(k)
    ren = {}
    for s, ks in taken.items():
        for k in ks: ren[k] = s if len(ks) == 1 or k == min(ks, key=len) else low(k.replace('Type', ''))
    assert len(set(ren.values())) == len(ren), [k for k in ren if list(ren.values()).count(ren[k]) > 1]
    return ren
ren = shorten()
places = {ren[k]: (a, m, subst(b, ren)) for k, (a, m, b) in places.items()}
if __name__ == '__main__':
    def sh(p):
        if p[0] == 'el': return p[1] + ('' if p[2] == 'text' else ':' + str(p[2]))
        if p[0] == 'seq': return '(' + ', '.join(map(sh, p[1])) + ')'
        if p[0] == 'choice': return '(' + ' | '.join(map(sh, p[1])) + ')'
        if p[0] == 'from': return f'[{sh(p[2])} <{p[1]}> {sh(p[3])}]'
        return '()' if p[0] == 'empty' else sh(p[1]) + {'opt': '?', 'many': '*', 'some': '+'}[p[0]]
    for k, (a, m, b) in places.items():
        print(k, [f'{x}' + ('' if s is None else f'@{s}') + ('!' if r else '') for x, s, r in a], 'MIXED' if m else '', sh(b))
