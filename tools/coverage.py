"""List the lines of /repo cited by the model: coverage.py prints a markdown table."""
import re, glob, os
root = os.path.dirname(os.path.dirname(os.path.abspath(__file__)))
cited = {}
byname = {}
for d, _, fs in os.walk('/repo'):
    for f in fs:
        if f.endswith(('.py', '.f90', '.c')):
            p = os.path.relpath(os.path.join(d, f), '/repo')
            byname.setdefault(f, []).append(p)
            byname.setdefault(p, []).append(p)
for m in sorted(glob.glob(os.path.join(root, 'lean/Verif/Model/*.lean'))):
    s = open(m).read()
    mod = os.path.basename(m)[:-5]
    cur = None
    for c in re.findall(r'/-[-!].*?-/', s, re.S):
        for t in re.finditer(r'([\w/]+\.(?:py|f90))|\bL(\d+)(?:-(?:L)?(\d+))?', c):
            if t.group(1):
                n = byname.get(t.group(1), [])
                if len(n) == 1: cur = n[0]
                elif len(n) > 1:
                    cur = [x for x in n if x.split('/')[0] == (cur or '').split('/')[0]]
                    cur = cur[0] if cur else n[0]
                else: cur = None
            elif cur:
                a = int(t.group(2)); b = int(t.group(3) or a)
                cited.setdefault(cur, {}).setdefault(mod, set()).update(range(a, b + 1))
print('| file | lines | lines cited | model modules |\n|---|---|---|---|')
for f in sorted(cited):
    n = sum(1 for _ in open('/repo/' + f, errors='replace'))
    al = set().union(*cited[f].values())
    print('| `%s` | %d | %d | %s |' % (f, n, len([x for x in al if x <= n]), ', '.join(sorted(cited[f]))))
