"""Reads from the JSON schemas of /repo/schema which members are required where.  Used by gen_jrequired.py.
A condition is ('all', [..]), ('any', [..]) or ('has', member); negative conditions and if/then/else are left out."""
import os, sys
sys.path.insert(0, os.path.dirname(__file__))
import jschema
from jschema import DOC, JSF, VERSIONS, places, deref, types, at

def mk(op, fs):
    unit = ('all', []) if op == 'all' else ('any', [])
    zero = ('any', []) if op == 'all' else ('all', [])
    out = []
    for f in fs:
        if f == unit: continue
        if f == zero: return zero
        for g in (f[1] if f[0] == op else [f]):
            if g not in out: out.append(g)
    if op == 'any': out.sort(key=repr)
    return out[0] if len(out) == 1 else (op, out)

def need(n, doc):
    """the condition on objects, None if the schema has no objects"""
    if n is True or n is False: return None
    if '$ref' in n:
        f, _, frag = n['$ref'].partition('#')
        if f and not f.startswith('jsf'): return None
        d2 = JSF if f else doc
        m = d2
        for p in frag.strip('/').split('/'):
            if p: m = m[p]
        return need(m, d2)
    own = any(k in n for k in ('type', 'properties', 'items', 'enum', 'const'))
    if own and 'object' not in types(n): return None
    if not own and 'required' not in n and not any(k in n for k in ('anyOf', 'oneOf', 'allOf')): return None
    fs = [('has', r) for r in n.get('required', [])]
    some = own or 'required' in n
    for k in ('oneOf', 'anyOf'):
        if k in n:
            alts = [need(m, doc) for m in n[k]]
            alts = [a for a in alts if a is not None]
            if alts: fs.append(mk('any', alts)); some = True
    for m in n.get('allOf', []):
        a = need(m, doc)
        if a is not None: fs.append(a); some = True
    return mk('all', fs) if some else None

def show(f):
    if f[0] == 'has': return f[1]
    return '(' + (' & ' if f[0] == 'all' else ' | ').join(map(show, f[1])) + ')'

NEED = {}      # place -> {version: condition}
def traverse(v):
    done = set()
    todo = [(('place', 'bom'), DOC[v], DOC[v], '')]
    while todo:
        s, node, doc, path = todo.pop()
        alts = deref(node, doc)
        ks, ls, os_ = at(s, v)
        if ls:
            def items(n, d):
                for d2, n2, _ in deref(n, d):
                    if 'array' in types(n2):
                        i = n2.get('items', [])
                        for i in (i if isinstance(i, list) else [i]): yield i, d2
            its = list(items(node, doc))
            # several item schemas of one array are alternatives
            for i, d2 in its: todo.append((ls[0], i, d2, path + '[]'))
        if os_:
            p = os_[0]
            f = need(node, doc)
            if f is None:
                assert not any('object' in types(n) for _, n, _ in alts), (v, path)
                continue
            NEED.setdefault(p, {}).setdefault(v, {}).setdefault(str(f), (f, path))
            k = (p, id(node))
            if k in done: continue
            done.add(k)
            mine = dict(places[p])
            for d, n, _ in alts:
                if 'object' in types(n):
                    for q, x in n.get('properties', {}).items():
                        if q in mine and deref(x, d): todo.append((mine[q], x, d, path + '.' + q))
for v in VERSIONS: traverse(v)
if __name__ == '__main__':
    for p in NEED:
        for v in sorted(NEED[p]):
            fs = NEED[p][v]
            print(p, v, ' !! '.join(show(f) + ' @' + path for f, path in fs.values()) if len(fs) > 1 else show(list(fs.values())[0][0]))
