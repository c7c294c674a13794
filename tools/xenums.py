"""Reads from the XML schemas of /repo/schema which strings are enumerated where, and since which version.  Used by
gen_xenums.py.  Enumerations in other files (SPDX licenses) are left out."""
import os, sys
sys.path.insert(0, os.path.dirname(os.path.abspath(__file__)))
from xschema import places, VERSIONS, ROOT, XS, read, bomNode, tag, TEXT, GLOBAL
from gen_xschema import flat, at

SIMPLE = {v: {e.get('name'): e for e in ROOT[v] if tag(e) == 'simpleType'} for v in VERSIONS}
def simple(st, v):
    """the enumerated strings of a simple type, None for any string"""
    u = st.find(XS + 'union')
    if u is not None:
        alts = [named(t, v) for t in (u.get('memberTypes') or '').split()] + [simple(t, v) for t in u.findall(XS + 'simpleType')]
        return None if None in alts else set().union(*alts)
    r = st.find(XS + 'restriction')
    assert r is not None
    out = {e.get('value') for e in r.findall(XS + 'enumeration')}
    if out: return out
    return named(r.get('base'), v)
def named(ty, v):
    if ty is None or not ty.startswith('bom:'): return None
    if ty[4:] in SIMPLE[v]: return simple(SIMPLE[v][ty[4:]], v)
    return None
def of(e, v):
    """the strings of an element or attribute with a simple type"""
    st = e.find(XS + 'simpleType')
    return simple(st, v) if st is not None else named(e.get('type'), v)
def members(n, v):
    """(attributes {name: declaration}, text type or None, elements [(name, declaration)])"""
    attrs = {}; text = [None]; els = []
    def go(e):
        for x in e:
            t = tag(x)
            if t == 'attribute': attrs[x.get('name')] = x
            elif t == 'attributeGroup': go(GLOBAL[v][x.get('ref')[4:]])
            elif t == 'extension': text[0] = x.get('base') or text[0]; go(x)
            elif t in ('simpleContent', 'sequence', 'choice'): go(x)
            elif t == 'element': els.append((x.get('name'), x))
    go(n)
    return attrs, text[0], els
def elnode(e, v):
    ty = e.get('type')
    if ty is None:
        ct = e.find(XS + 'complexType'); return ct if ct is not None else TEXT
    return GLOBAL[v].get(ty[4:], TEXT) if ty.startswith('bom:') else TEXT
def elsOf(p):
    if p[0] == 'el': return {p[1]: {p[2]}}
    out = {}
    for q in (p[1] if p[0] in ('seq', 'choice') else [p[2], p[3]] if p[0] == 'from' else [] if p[0] == 'empty' else [p[1]]):
        for k, s in elsOf(q).items(): out.setdefault(k, set()).update(s)
    return out
FOUND = {}      # (kind, place, name) -> {version: [set or None]}
def put(k, v, s): FOUND.setdefault(k, {}).setdefault(v, []).append(s)
for v in VERSIONS:
    todo = [('bom', bomNode[v][0])]; seen = set()
    while todo:
        p, nd = todo.pop()
        if (p, id(nd)) in seen: continue
        seen.add((p, id(nd)))
        if nd is TEXT: continue
        attrs, text, els = members(nd, v)
        for a, x in attrs.items(): put(('attr', p, a), v, of(x, v))
        if text: put(('text', p, ''), v, named(text, v))
        E = elsOf(at(places[p][2], v))
        for m, x in els:
            n2 = elnode(x, v)
            assert len(E[m]) == 1
            q = list(E[m])[0]
            if n2 is TEXT: put(('elem', p, m), v, of(x, v))
            todo.append((q, n2))
ENUMS = {}
for k, E in FOUND.items():
    vs = sorted(E)
    if all(s is None for v in vs for s in E[v]): continue
    ENUMS[k] = {v: E[v] for v in vs}
if __name__ == '__main__':
    for k, E in ENUMS.items():
        flag = ''
        m = {}
        for v in E:
            if None in E[v]: flag += f' ANY@{v}'
            d = []
            for s in E[v]:
                if s not in d: d.append(s)
            if len(d) > 1: flag += f' DIFF@{v}'
            m[v] = d[0]
        vs = sorted(m); prev = None; desc = []
        for v in vs:
            if m[v] is None: desc.append(f'{v}:any'); prev = None; continue
            if prev is None: desc.append(f'{v}:{len(m[v])}')
            else:
                if prev - m[v]: flag += f' LOST@{v}:{sorted(prev-m[v])}'
                if m[v] - prev: desc.append(f'{v}:+{len(m[v]-prev)}')
            prev = m[v]
        print(k, ' '.join(desc), flag)
