#!/usr/bin/env python3
# Writes /verif/AXIOMS.md: the axioms every claimed theorem depends on, as printed by Lean. Run after `lake build`.
import json,re,subprocess,tempfile,os
c=[t for c in json.load(open('/verif/MANIFEST.json'))['claims'] for t in c['theorems']]
f=tempfile.NamedTemporaryFile('w',suffix='.lean',delete=False)
f.write('import Verif\n'+'\n'.join('#print axioms '+x for x in c)); f.close()
o=subprocess.run(['lake','env','lean',f.name],cwd='/verif/lean',capture_output=True,text=True).stdout
os.unlink(f.name)
ax={}
for m in re.finditer(r"'([^']+)' (?:depends on axioms: \[([^\]]*)\]|does not depend on any axioms)",o):
    ax[m.group(1)]=', '.join((m.group(2) or 'none').split(',')).replace('\n',' ').replace('  ',' ')
missing=[x for x in c if x not in ax]
assert not missing, (len(missing), missing[:5])
with open('/verif/AXIOMS.md','w') as g:
    g.write('# Axioms of the claimed theorems\n\nPrinted by `#print axioms` (tools/gen_axioms.py). `propext`, `Classical.choice` and `Quot.sound` are the axioms of Lean itself.\n\n| theorem | axioms |\n|---|---|\n')
    for x in c: g.write(f'| `{x}` | {ax[x]} |\n')
