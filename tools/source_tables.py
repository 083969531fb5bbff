#!/usr/bin/env python3
"""Writes lean/Verif/Source/WhirlpoolTables.lean: the text of hash/whirlpool/whirlpool_tables.go in nine parts. The parser is not run on the
whole text here: Verif/Code/WhirlpoolTables.lean does that with lemmas about long tables."""
import re
F = 'hash/whirlpool/whirlpool_tables.go'
lines = open('/repo/' + F).read().split('\n')
if lines[-1] == '': lines.pop()
start = [i for i, l in enumerate(lines) if l.startswith('var ct')][0] + 1
parts = [lines[:start]] + [lines[start + 80 * k: start + 80 * (k + 1)] for k in range(8)]
assert sum(map(len, parts)) == len(lines)
out = f'''import Verif.Lang.Table

/-!
# Source of {F}

The text of the file, line by line without line ends, in nine parts, and the tokens of the parts. Generated by `tools/source_tables.py`.
-/
namespace Source.WhirlpoolTables
open GoLang

'''
for k, p in enumerate(parts):
    assert all('"#' not in l for l in p)
    what = 'up to the table `ct`' if k == 0 else f'of the entries {256*(k-1)} to {256*k-1} of `ct`'
    out += f'/-- The lines {what}. -/\ndef src{k} : List String := [\n' + ',\n'.join(f'r#"{l}"#' for l in p) + ']\n\n'
out += '/-- The text. -/\ndef src : List String := ' + ' ++ ('.join(f'src{k}' for k in range(9)) + ')' * 8 + '\n\n'
for k, p in enumerate(parts):
    if k == 0: continue
    ns = [int(x, 16) for l in p if '//' not in l for x in re.findall(r'0x[0-9a-f]+', l)]
    assert len(ns) == 256
    if k == 8: ns.pop()
    out += f'/-- The numbers of `src{k}`' + (', without the last' if k == 8 else '') + '. -/\n'
    out += f'def nums{k} : List Nat := [\n' + ',\n'.join('  ' + ', '.join(map(hex, ns[i:i+4])) for i in range(0, len(ns), 4)) + ']\n\n'
    last = '' if k < 8 else ' ++ [.int 0x86228644a411c286, .op (n! "}"), .op (n! ";")]'
    out += f'theorem lex{k} : lex src{k} = some (commas nums{k}{last}) := by kernel_rfl\n\n'
out += 'end Source.WhirlpoolTables\n'
open('lean/Verif/Source/WhirlpoolTables.lean', 'w').write(out)
