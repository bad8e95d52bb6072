"""Regenerate the generated sections of DESIGN.md (plan per property, modelled parts, findings)."""
import json, os, subprocess
root = os.path.dirname(os.path.dirname(os.path.abspath(__file__)))
p = os.path.join(root, 'DESIGN.md')
s = open(p).read()
s = s[:s.index('## Plan per property')]
plan = json.load(open(os.path.join(root, 'tools/plan.json')))
man = {c['property']: c for c in json.load(open(os.path.join(root, 'MANIFEST.json')))['claims']}
props = [json.loads(l) for l in open(os.path.join(root, 'properties.jsonl'))]
s += '## Plan per property\n\nThe model modules and the method of proof; in brackets the outcome.\n\n'
for q in props:
    mod, how = plan[q['id']]
    c = man.get(q['id'])
    mods = ', '.join(('`%s`' if '/' in m else '`Model/%s`') % m.strip() for m in mod.split(','))
    s += '* **%s** %s — %s: %s. [%s]\n' % (q['id'], q['title'], mods, how,
         'not yet' if not c else c['status'] if c['status'] == 'proved' and not c['note'] else c['status'] + ': ' + c['note'])
s += '\n## Modelled parts\n\nLines of `/repo` cited by the model, by file (of comments in the Lean sources, counted by '
s += '`tools/coverage.py`).\n\n' + subprocess.run(['python3', os.path.join(root, 'tools/coverage.py')], capture_output=True, text=True).stdout
s += '\n' + open(os.path.join(root, 'tools/notmodelled.md')).read() + '\n' + open(os.path.join(root, 'tools/findings.md')).read()
open(p, 'w').write(s)
