"""Write AXIOMS.md: the axioms of every theorem named in MANIFEST.json, by `#print axioms`."""
import json, os, re, subprocess
R = os.path.join(os.path.dirname(os.path.abspath(__file__)), '..')
names = [t for c in json.load(open(R + '/MANIFEST.json'))['claims'] for t in c['theorems']]
src = 'import Verif\n' + ''.join('#print axioms %s\n' % n for n in names)
p = '/tmp/axioms_check.lean'
open(p, 'w').write(src)
out = subprocess.run(['lake', 'env', 'lean', p], cwd=R + '/lean', capture_output=True, text=True).stdout
res = {}
for m in re.finditer(r"'([^']+)' (does not depend on any axioms|depends on axioms: \[([^\]]*)\])", out):
    res[m.group(1)] = ', '.join((m.group(3) or 'none').split(',')).replace('\n', '') if m.group(3) else 'none'
with open(R + '/AXIOMS.md', 'w') as f:
    f.write('# Axioms of the theorems in MANIFEST.json\n\nMade by `tools/axioms.py` with `#print axioms`.\n\n| theorem | axioms |\n|---|---|\n')
    for n in names:
        a = re.sub(r'\s+', ' ', res[n])
        f.write('| `%s` | %s |\n' % (n, a))
print(len(names), sorted(set(re.sub(r'\s+', ' ', v) for v in res.values())))
