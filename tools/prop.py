"""Add or replace properties: prop.py < file with one JSON object per line."""
import json, os, sys
root = os.path.dirname(os.path.dirname(os.path.abspath(__file__)))
pf = os.path.join(root, 'properties.jsonl')
ps = [json.loads(l) for l in open(pf) if l.strip()]
for l in sys.stdin:
    if not l.strip(): continue
    p = json.loads(l)
    assert set(p) == {'id', 'title', 'statement', 'quantifier', 'why_tests_cant', 'anchors'}, set(p)
    for i, q in enumerate(ps):
        if q['id'] == p['id']:
            ps[i] = p
            break
    else: ps.append(p)
ps.sort(key=lambda p: int(p['id'][1:]))
with open(pf, 'w') as f:
    for p in ps: f.write(json.dumps(p, ensure_ascii=False) + '\n')
