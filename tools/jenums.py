"""Reads from the JSON schemas of /repo/schema which strings are enumerated where, and since which version.  Used by
gen_jenums.py.  Enumerations in other files (SPDX licenses) are left out, and $schema, whose only value differs from
version to version."""
import os, sys
sys.path.insert(0, os.path.dirname(__file__))
from jschema import DOC, VERSIONS, places, deref, types, at

FOUND = {}      # (place, member) -> {version: [set of values, or None for any string]}
def values(node, doc):
    out = set()
    for _, n, _ in deref(node, doc):
        if 'string' in types(n):
            if 'enum' in n: out |= set(n['enum'])
            elif 'const' in n: out.add(n['const'])
            else: return None
    return out
def traverse(v):
    done = set()
    todo = [(('place', 'bom'), DOC[v], DOC[v], None)]
    while todo:
        s, node, doc, where = todo.pop()
        alts = deref(node, doc)
        ks, ls, os_ = at(s, v)
        if where and any('string' in types(n) for _, n, _ in alts):
            FOUND.setdefault(where, {}).setdefault(v, []).append(values(node, doc))
        if ls:
            for d2, n2, _ in alts:
                if 'array' in types(n2):
                    i = n2.get('items', [])
                    for i in (i if isinstance(i, list) else [i]): todo.append((ls[0], i, d2, where))
        if os_:
            p = os_[0]; k = (p, id(node))
            if k in done: continue
            done.add(k); mine = dict(places[p])
            for d, n, _ in alts:
                if 'object' in types(n):
                    for q, x in n.get('properties', {}).items():
                        if q in mine and deref(x, d): todo.append((mine[q], x, d, (p, q)))
for v in VERSIONS: traverse(v)

ENUMS = {}      # place -> {member: [(first version or None, values)]}
for (p, k), E in FOUND.items():
    vs = sorted(E)
    m = {v: (None if None in E[v] else set().union(*E[v])) for v in vs}
    if all(x is None for x in m.values()) or k == '$schema': continue
    assert None not in m.values(), (p, k)
    out = []; seen = set()
    for v in vs:
        assert seen <= m[v], (p, k, v)
        if m[v] - seen: out.append((None if v == vs[0] else v, sorted(m[v] - seen)))
        seen = m[v]
    ENUMS.setdefault(p, {})[k] = out
