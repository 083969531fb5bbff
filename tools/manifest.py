import json,re,glob,sys
# Regenerates MANIFEST.json from the theorem names in lean/Verif/Props and the notes in tools/notes.py

exec(open('/verif/tools/notes.py').read())
thm={}
for f in sorted(glob.glob('/verif/lean/Verif/Props/*.lean')):
    ns=[]
    for line in open(f):
        m=re.match(r'namespace (\S+)',line)
        if m: ns.append(m.group(1))
        m=re.match(r'end (\S+)',line)
        if m and ns and ns[-1]==m.group(1): ns.pop()
        m=re.match(r'theorem (C(\d\d+)_\S+)',line)
        if m: thm.setdefault('C'+m.group(2),[]).append('.'.join(ns+[m.group(1)]))
for k,extra in EXTRA.items(): thm.setdefault(k,[]).extend(extra)
claims=[]
for l in open('/verif/properties.jsonl'):
    p=json.loads(l)['id']
    if p in thm:
        st='partial' if p in PARTIAL else 'proved'
        claims.append({"property":p,"status":st,"theorems":thm[p],"note":NOTES.get(p,PARTIAL.get(p,""))})
    elif p in NA: claims.append({"property":p,"status":"not_applicable","theorems":[],"note":NA[p]})
    else: claims.append({"property":p,"status":"partial","theorems":[],"note":"not done yet"})
json.dump({"claims":claims},open('/verif/MANIFEST.json','w'),indent=1)
print(len(claims),sum(c['status']=='proved' for c in claims),[c['property'] for c in claims if c['note']=='not done yet'])
