"""Maintain MANIFEST.json, lean/Verif.lean and lean/Verif/Axioms.lean.

claim.py Cnn status "th1 th2 ..." "note"   add or replace a claim
claim.py                                   only regenerate the Lean files
"""
import json, os, sys, glob
root = os.path.dirname(os.path.dirname(os.path.abspath(__file__)))
mf = os.path.join(root, 'MANIFEST.json')
m = json.load(open(mf)) if os.path.exists(mf) else {"claims": []}
if len(sys.argv) > 1:
    cid, status, ths, note = sys.argv[1:5]
    assert status in ('proved', 'partial', 'not_applicable')
    c = {"property": cid, "status": status, "theorems": ths.split(), "note": note}
    m['claims'] = [x for x in m['claims'] if x['property'] != cid] + [c]
    m['claims'].sort(key=lambda x: x['property'])
    json.dump(m, open(mf, 'w'), indent=1, ensure_ascii=False)
    open(mf, 'a').write('\n')
mods = sorted(os.path.relpath(f, os.path.join(root, 'lean'))[:-5].replace('/', '.')
              for f in glob.glob(os.path.join(root, 'lean/Verif/Props/*.lean')))
with open(os.path.join(root, 'lean/Verif/Axioms.lean'), 'w') as f:
    for x in mods: f.write('import %s\n' % x)
    f.write('/-!\nThe axioms each property theorem depends on (printed during the build).\n-/\n')
    for c in m['claims']:
        for t in c['theorems']: f.write('#print axioms %s\n' % t)
with open(os.path.join(root, 'lean/Verif.lean'), 'w') as f:
    for x in mods: f.write('import %s\n' % x)
    f.write('import Verif.Axioms\n')
