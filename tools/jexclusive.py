"""Reads from the JSON schemas of /repo/schema which members exclude each other.  Used by gen_jexclusive.py.
FORBID: place -> {version: set of sets of members that must not all be there}, from `oneOf` and `not`; if/then/else and
alternatives that differ in something else than their members are left out."""
import os, sys
sys.path.insert(0, os.path.dirname(__file__))
import jschema
from jschema import DOC, JSF, VERSIONS, places, deref, types, at
from jrequired import need

def resolve(n, doc):
    while isinstance(n, dict) and '$ref' in n:
        f, _, frag = n['$ref'].partition('#')
        if f and not f.startswith('jsf'): return None, doc
        doc = JSF if f else doc
        n = doc
        for p in frag.strip('/').split('/'):
            if p: n = n[p]
    return n, doc

def minimal(ss): return {s for s in ss if not any(t < s for t in ss)}

def exclusive(alts):
    """alts: nodes of objects of which exactly one is matched"""
    out = set()
    for i, a in enumerate(alts):
        R = frozenset(a.get('required', []))
        others = [b for j, b in enumerate(alts) if j != i]
        for b in others:
            S = frozenset(b.get('required', []))
            if R and S: out.add(R | S)
    closed = lambda n: n.get('additionalProperties') is False and 'properties' in n
    if all(map(closed, alts)):
        ms = sorted({m for a in alts for m in a['properties']})
        for m in ms:
            for n in ms:
                if m < n and not any(m in a['properties'] and n in a['properties'] for a in alts):
                    out.add(frozenset([m, n]))
    return out

def forbid(n, doc):
    n, doc = resolve(n, doc)
    if not isinstance(n, dict): return set()
    out = set()
    if 'oneOf' in n:
        alts = [resolve(a, doc)[0] for a in n['oneOf']]
        alts = [a for a in alts if 'type' not in a or 'object' in types(a)]
        out |= exclusive(alts)
    for m in n.get('allOf', []):
        if 'not' in m and set(m['not']) == {'required'}: out.add(frozenset(m['not']['required']))
    return minimal(out)

FORBID = {}
def traverse(v):
    done = set()
    todo = [(('place', 'bom'), DOC[v], DOC[v], '', set())]
    while todo:
        s, node, doc, path, more = todo.pop()
        alts = deref(node, doc)
        ks, ls, os_ = at(s, v)
        if ls:
            its = []
            for d2, n2, _ in alts:
                if 'array' in types(n2):
                    i = n2.get('items', [])
                    for i in (i if isinstance(i, list) else [i]): its.append((i, d2))
            m2 = exclusive([resolve(i, d2)[0] for i, d2 in its]) if len(its) > 1 else set()
            for i, d2 in its: todo.append((ls[0], i, d2, path + '[]', minimal(m2)))
        if os_:
            p = os_[0]
            if need(node, doc) is None: continue
            f = minimal(forbid(node, doc) | more)
            FORBID.setdefault(p, {}).setdefault(v, []).append((f, path))
            k = (p, id(node))
            if k in done: continue
            done.add(k)
            mine = dict(places[p])
            for d, n, _ in alts:
                if 'object' in types(n):
                    for q, x in n.get('properties', {}).items():
                        if q in mine and deref(x, d): todo.append((mine[q], x, d, path + '.' + q, set()))
for v in VERSIONS: traverse(v)
if __name__ == '__main__':
    for p in FORBID:
        for v in sorted(FORBID[p]):
            fs = {frozenset(f) for f, _ in FORBID[p][v]}
            if fs != {frozenset()}: print(p, v, [sorted(map(sorted, f)) for f in fs])
