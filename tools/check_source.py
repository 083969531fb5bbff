#!/usr/bin/env python3
"""Checks that the texts in lean/Verif/Source are those of the files in /repo, and lists Go files of the repository without one. Run in /verif."""
import re, glob, os
bad, seen = 0, set()
for p in sorted(glob.glob('lean/Verif/Source/*.lean')):
    t = open(p).read()
    go = re.search(r'# Source of (\S+)', t).group(1)
    seen.add(go)
    i = t.index(': List String := [')
    lines = re.findall(r'^r(#+)"(.*?)"\1[,\]]', t[i:], re.M | re.S)
    text = open('/repo/' + go, newline='').read().replace('\r\n', '\n')
    got = [x[1] for x in lines]
    ok = '\n'.join(got).rstrip('\n') == text.rstrip('\n')
    bad += not ok
    print('same' if ok else 'DIFFERENT', go, len(got))
for d, _, fs in os.walk('/repo'):
    for f in fs:
        g = os.path.relpath(os.path.join(d, f), '/repo')
        if g.endswith('.go') and not g.endswith('_test.go') and g not in seen: print('no text', g)
print(bad, 'different')
