#!/usr/bin/env python3
"""Writes lean/Verif/Source/*.lean: the text of Go files and their syntax trees. Run in /verif after building Verif.Lang.Parser."""
import subprocess, sys, os, shutil, tempfile
FILES = {
 'Bcc': 'checksum/bcc/bcc.go', 'Lrc': 'checksum/lrc/lrc.go', 'Luhn': 'checksum/luhn/luhn.go',
 'Fletcher16': 'checksum/fletcher/fletcher16.go', 'Fletcher32': 'checksum/fletcher/fletcher32.go', 'Fletcher64': 'checksum/fletcher/fletcher64.go',
 'Hex': 'encoding/hex/hex.go', 'Hex256b': 'encoding/hex/hex_256b.go', 'HexTiny': 'encoding/hex/hex_tiny.go',
 'BytesAdd': 'bytes/Add.go', 'BytesAddLE': 'bytes/AddLE.go', 'BytesAddBE': 'bytes/AddBE.go', 'BytesPad': 'bytes/pad.go',
 'BytesZero': 'bytes/Zero.go', 'BytesXor': 'bytes/Xor.go',
 'NetIpv4': 'net/Ipv4.go', 'NetMask': 'net/Mask.go', 'NetCidr': 'net/Cidr.go', 'NetIpTree': 'net/IpTree.go',
 'CodegenString': 'codegen/BytesToString.go', 'CodegenHexSep': 'codegen/BytesToHexSep.go',
 'RipeShared': 'hash/ripemd/shared.go', 'Ripe128': 'hash/ripemd/ripe128.go', 'Ripe160': 'hash/ripemd/ripe160.go',
 'Ripe256': 'hash/ripemd/ripe256.go', 'Ripe320': 'hash/ripemd/ripe320.go', 'Whirlpool': 'hash/whirlpool/whirlpool.go',
 'TestAbbr': 'test/Abbr.go', 'TestStringMatch': 'test/StringMatch.go', 'TestHashCompare': 'test/HashCompare.go', 'MakeTables': 'hash/whirlpool/make_tables.go', 'Endian': 'endian/endian.go',
}
dump = os.path.join(tempfile.mkdtemp(), 'dump.lean')
shutil.copy('tools/dump.lean.txt', dump)
names = sys.argv[1:] or FILES
os.makedirs('lean/Verif/Source', exist_ok=True)
for n in names:
    r = subprocess.run(['lake', 'env', 'lean', '--run', dump, n, '/repo/' + FILES[n], FILES[n]], cwd='lean',
                       capture_output=True, text=True)
    if r.returncode: sys.exit(n + r.stdout + r.stderr)
    open(f'lean/Verif/Source/{n}.lean', 'w').write(r.stdout)
