{"id": "C01", "title": "Hex encode/decode round-trip", "statement": "hex.ToBytes(hex.FromBytes(b)) returns exactly b and a nil error; hex.ToBytesFast(hex.FromBytes(b)) returns exactly b.", "quantifier": "every byte slice b of every length, in both builds (default table decoder and -tags tiny)", "why_tests_cant": "infinitely many slices; tests use a few dozen strings", "anchors": ["encoding/hex/hex.go:FromBytes", "encoding/hex/hex.go:ToBytes", "encoding/hex/hex.go:ToBytesFast"]}
{"id": "C02", "title": "Hex encoding is the canonical upper-case form", "statement": "hex.FromBytes(b) has length 2*len(b); character 2i is the upper-case hex digit of the high nibble of b[i] and character 2i+1 that of its low nibble; hence different slices encode differently.", "quantifier": "every byte slice and every position in it", "why_tests_cant": "unbounded length", "anchors": ["encoding/hex/hex.go:FromBytes", "encoding/hex/hex.go:hexTable"]}
{"id": "C03", "title": "Hex decoding accepts exactly the even-length case-insensitive hex strings", "statement": "hex.ToBytes(s) succeeds iff len(s) is even and every character is in 0-9a-fA-F; the result is the big-nibble-first value of each pair, and re-encoding it gives s upper-cased.", "quantifier": "every byte string s (including non-ASCII bytes)", "why_tests_cant": "256^n strings for each n; acceptance of a single bad byte anywhere would be a failure", "anchors": ["encoding/hex/hex.go:ToBytes", "encoding/hex/hex_256b.go:decode"]}
{"id": "C04", "title": "Hex decode errors point at the leftmost bad character", "statement": "If s contains any non-hex character hex.ToBytes returns no slice and an InvalidHexAt error carrying the leftmost such character and its index, also when len(s) is odd; if s has only hex characters and odd length the error is ErrLength.", "quantifier": "every byte string s", "why_tests_cant": "needs every combination of position, character and parity", "anchors": ["encoding/hex/hex.go:ToBytes", "encoding/hex/hex.go:InvalidHexAt", "encoding/hex/hex.go:ErrLength"]}
{"id": "C05", "title": "ToBytesFast agrees with ToBytes", "statement": "hex.ToBytesFast(s) is nil exactly when hex.ToBytes(s) returns an error, and otherwise returns the same (non-nil) slice.", "quantifier": "every byte string s, both builds", "why_tests_cant": "two independent loops must agree on every string", "anchors": ["encoding/hex/hex.go:ToBytesFast", "encoding/hex/hex.go:ToBytes"]}
{"id": "C06", "title": "The tiny build is observably identical to the default build", "statement": "hex.ToBytes and hex.ToBytesFast return the same value and the same error (same byte and position) whether built with or without -tags tiny.", "quantifier": "every byte string s", "why_tests_cant": "a test binary is built with one tag only; both must agree on all 256 byte values in every position", "anchors": ["encoding/hex/hex_tiny.go:decode", "encoding/hex/hex_256b.go:decode"]}
{"id": "C07", "title": "BytesToString produces a Go literal for exactly the input", "statement": "codegen.BytesToString(in) never panics and returns a double-quoted literal in which every byte is written as \\xHH; interpreting it as a Go string literal yields exactly in.", "quantifier": "every byte slice", "why_tests_cant": "unbounded input; tests cover three slices", "anchors": ["codegen/BytesToString.go:BytesToString"]}
{"id": "C08", "title": "BytesToStringSep produces a section-broken Go string expression for the input", "statement": "For bytesPerSection>=1 codegen.BytesToStringSep(in,bps) returns \"..\"+\"..\" with bps bytes per quoted section (the last one possibly shorter), which evaluates to in; for bytesPerSection<1 it panics.", "quantifier": "every byte slice and every section size", "why_tests_cant": "all length / section-size combinations; the buffer is pre-sized by a formula that must match what is written for each of them", "anchors": ["codegen/BytesToString.go:BytesToStringSep"]}
{"id": "C09", "title": "BytesToHexSep produces a section-broken Go composite-literal body for the input", "statement": "For bytesPerSection>=1 codegen.BytesToHexSep(in,bps) returns {0xHH, 0xHH, ..} listing exactly the bytes of in, with a newline before every byte whose index is a positive multiple of bps; for bytesPerSection<1 it panics.", "quantifier": "every byte slice and every section size", "why_tests_cant": "all length / section-size combinations; pre-sized buffer", "anchors": ["codegen/BytesToHexSep.go:BytesToHexSep"]}
{"id": "C10", "title": "IPv4/uint32 conversions are inverse", "statement": "Ipv4ToUint(Ipv4FromUint(u))==u for every u, Ipv4FromUint(Ipv4ToUint(ip)) is the 4-byte form of ip for every IPv4 address in either its 4-byte or 16-byte (::ffff:a.b.c.d) form, and the value is a*2^24+b*2^16+c*2^8+d.", "quantifier": "all 2^32 integers and all net.IP values", "why_tests_cant": "2^32 values and arbitrary-length net.IP slices", "anchors": ["net/Ipv4.go:Ipv4ToUint", "net/Ipv4.go:Ipv4FromUint"]}
{"id": "C11", "title": "Ipv4ToUint is total and order preserving", "statement": "For any net.IP that is not an IPv4 address (nil, IPv6, wrong length) Ipv4ToUint returns 0 and never panics; on IPv4 addresses numeric order is the lexicographic order of the octets.", "quantifier": "all net.IP values", "why_tests_cant": "arbitrary-length slices", "anchors": ["net/Ipv4.go:Ipv4ToUint"]}
{"id": "C12", "title": "MaskFromByte gives the b-leading-ones mask", "statement": "For b in 0..32 MaskFromByte(b) is the 4-byte mask whose first b bits are one and the others zero; for b in 33..255 it is 0.0.0.0.", "quantifier": "all 256 byte values and all 32 bit positions", "why_tests_cant": "whole domain incl. the wrap-around of 32-b", "anchors": ["net/Mask.go:MaskFromByte"]}
{"id": "C13", "title": "MaskToByte inverts MaskFromByte and rejects non-contiguous masks", "statement": "MaskToByte(MaskFromByte(b))==b for b in 0..32; MaskToByte of a contiguous mask of any length up to 16 bytes is its number of ones; a mask with a one after a zero gives 0.", "quantifier": "all masks of any length", "why_tests_cant": "2^32 four-byte masks and all other lengths", "anchors": ["net/Mask.go:MaskToByte", "net/Mask.go:MaskFromByte"]}
{"id": "C14", "title": "CidrEqual decides equality of IPv4 networks", "statement": "CidrEqual(a,b) is true iff the masks are byte-identical and the IPv4 addresses are the same (regardless of 4- or 16-byte form); it is an equivalence relation. Two different networks are never reported equal.", "quantifier": "all pairs of net.IPNet values", "why_tests_cant": "pairs of arbitrary slices", "anchors": ["net/Cidr.go:CidrEqual"]}
{"id": "C15", "title": "FirstIpv4 and LastIpv4 bound the CIDR", "statement": "For an IPv4 network in canonical form an address is contained in it iff it lies numerically between FirstIpv4 and LastIpv4 inclusive.", "quantifier": "all 33*2^32 IPv4 networks in any representation Go allows, all addresses", "why_tests_cant": "too many networks", "anchors": ["net/Cidr.go:FirstIpv4", "net/Cidr.go:LastIpv4"]}
{"id": "C16", "title": "IpTree lists exactly the addresses added", "statement": "After any sequence of AddIp/AddCidr/AddRange calls with IPv4 arguments the union of the CIDRs returned by ListCidr is exactly the set of IPv4 addresses added.", "quantifier": "all histories of operations, all 2^32 addresses", "why_tests_cant": "unbounded histories over a 32-level tree", "anchors": ["net/IpTree.go:Tree", "net/IpTree.go:AddIp", "net/IpTree.go:AddCidr", "net/IpTree.go:AddRange", "net/IpTree.go:ListCidr"]}
{"id": "C17", "title": "IpTree output is disjoint and sorted", "statement": "The CIDRs returned by ListCidr are pairwise disjoint and in strictly ascending address order.", "quantifier": "all histories", "why_tests_cant": "unbounded histories", "anchors": ["net/IpTree.go:ListCidr"]}
{"id": "C18", "title": "IpTree output is the shortest description", "statement": "No list of CIDRs that covers exactly the same addresses is shorter than ListCidr(); in particular no two listed CIDRs can be joined into one.", "quantifier": "all histories and all competing CIDR lists", "why_tests_cant": "quantifies over all CIDR lists", "anchors": ["net/IpTree.go:add", "net/IpTree.go:ListCidr"]}
{"id": "C19", "title": "IpTree CIDRs do not depend on order or repetition of additions", "statement": "Two histories that add the same set of addresses produce the same list of CIDRs.", "quantifier": "all pairs of histories", "why_tests_cant": "pairs of unbounded histories", "anchors": ["net/IpTree.go:add", "net/IpTree.go:ListCidr"]}
{"id": "C20", "title": "IpTree output is well formed", "statement": "Every returned CIDR has a 4-byte IP, a contiguous 4-byte mask of 0..32 ones and no host bits set.", "quantifier": "all histories", "why_tests_cant": "unbounded histories; the prefix is computed with wrapping byte arithmetic", "anchors": ["net/IpTree.go:each", "net/IpTree.go:ListCidr"]}
{"id": "C21", "title": "AddRange adds exactly the inclusive range and returns", "statement": "AddRange(start,end) terminates and adds exactly the IPv4 addresses a with start<=a<=end (nothing when start>end).", "quantifier": "all 2^64 (start,end) pairs and all prior trees", "why_tests_cant": "termination and exactness for all pairs; wrap-around at 255.255.255.255", "anchors": ["net/IpTree.go:AddRange"]}
{"id": "C22", "title": "IpTree values come only from the values added, via merge", "statement": "Every value reported by ListCidr is one of the values passed to Add*, or obtained from such values by the merge function; if all additions used one value v and merge(v,v)=v then every reported value is v.", "quantifier": "all histories, all merge functions", "why_tests_cant": "unbounded histories and arbitrary merge functions", "anchors": ["net/IpTree.go:add"]}
{"id": "C23", "title": "AddCidr adds exactly the network it is given", "statement": "AddCidr(n) adds the addresses contained in n if n is an IPv4 network and never adds an address outside n.", "quantifier": "all net.IPNet values Go can represent (4- or 16-byte addresses and masks, IPv6 networks)", "why_tests_cant": "arbitrary slices", "anchors": ["net/IpTree.go:AddCidr", "net/Mask.go:MaskToByte"]}
{"id": "C24", "title": "IpTree additions are monotone and covered additions are no-ops", "statement": "Adding never removes an address; adding a block already covered by one listed CIDR leaves ListCidr (CIDRs and values) unchanged.", "quantifier": "all histories and all blocks", "why_tests_cant": "unbounded histories", "anchors": ["net/IpTree.go:add"]}
{"id": "C25", "title": "Little-endian addition is exact", "statement": "AddNLE(sum,a,b) leaves in sum[0:N/8] the low N bits of LE(first N/8 bytes of a)+LE(first N/8 bytes of b), returns the carry-out (0 or 1) and a nil error, whenever len(sum)>=N/8, the used bytes of b do not overlap sum[0:N/8], and a is not a shorter non-empty slice starting exactly at sum's start (that case is C30).", "quantifier": "N in 16,32,64,128,256,512; every a, b, sum of every length; every memory layout allowed", "why_tests_cant": "2^1024 operand pairs, all short lengths, all overlaps of a and sum", "anchors": ["bytes/AddLE.go:Add16LE..Add512LE", "bytes/AddLE.go:addAnyLE", "bytes/pad.go:padLE"]}
{"id": "C26", "title": "Big-endian addition is exact", "statement": "AddNBE(sum,a,b) leaves in sum[0:N/8] the low N bits of BE(a)+BE(b) (a cut to its first N/8 bytes, shorter operands zero-extended), returns the carry-out and nil, whenever len(sum)>=N/8, len(b)<=N/8 (longer b is C27), and neither a (when shorter than N/8) nor b overlaps the bytes of sum that are written.", "quantifier": "N in 16..512; every a, b, sum of every length", "why_tests_cant": "2^1024 operand pairs, all short lengths", "anchors": ["bytes/AddBE.go:Add16BE..Add512BE", "bytes/AddBE.go:addAnyBE", "bytes/pad.go:padBE"]}
{"id": "C27", "title": "Over-long operands use their first N/8 bytes", "statement": "In every AddN function only the first N/8 bytes of a and b contribute to the result.", "quantifier": "all operand lengths above N/8", "why_tests_cant": "all lengths and contents", "anchors": ["bytes/AddBE.go:addAnyBE", "bytes/AddLE.go:addAnyLE"]}
{"id": "C28", "title": "A too-short sum is reported, not written", "statement": "If len(sum)<N/8 the Add functions return a non-nil error, never panic and leave memory unchanged.", "quantifier": "all three slices", "why_tests_cant": "all lengths", "anchors": ["bytes/pad.go:padLE", "bytes/pad.go:padBE", "bytes/Add.go:Add16", "bytes/Add.go:Add32"]}
{"id": "C29", "title": "Addition writes only sum[0:N/8]", "statement": "No byte outside sum[0:N/8] is modified by any AddN function.", "quantifier": "all memory, all slices", "why_tests_cant": "all layouts", "anchors": ["bytes/pad.go:padBE", "bytes/pad.go:padLE"]}
{"id": "C30", "title": "In-place accumulation", "statement": "With a being sum itself, AddN(sum,sum,b) replaces sum by sum+b; with a being a shorter prefix of sum it adds that prefix's value.", "quantifier": "all values, all prefix lengths", "why_tests_cant": "aliasing layouts", "anchors": ["bytes/pad.go:padLE", "bytes/pad.go:padBE"]}
{"id": "C31", "title": "Platform Add functions follow the detected byte order", "statement": "AddN(sum,a,b) equals AddNLE on little-endian platforms and AddNBE on big-endian ones, including results, carry and errors.", "quantifier": "both platforms, all inputs", "why_tests_cant": "one test host has one byte order", "anchors": ["bytes/Add.go:Add16..Add512", "endian/endian.go:Platform"]}
{"id": "C32", "title": "Zero clears exactly the slice", "statement": "After bytes.Zero(t) every byte of t is 0 and every other byte of memory is unchanged.", "quantifier": "all slice lengths and positions", "why_tests_cant": "all lengths (8-byte strided loop with tail)", "anchors": ["bytes/Zero.go:Zero"]}
{"id": "C33", "title": "XorEq xors the common prefix", "statement": "XorEq(dst,other) returns min(len(dst),len(other)), xors exactly that many bytes into dst, leaves the rest of memory unchanged; applying it twice restores dst; dst xored with itself is zero.", "quantifier": "all slices (disjoint or identical)", "why_tests_cant": "all lengths and contents", "anchors": ["bytes/Xor.go:XorEq"]}
{"id": "C34", "title": "BCC is the XOR of all bytes written, however chunked", "statement": "After any sequence of Write/Sum/Reset calls Sum8 is the XOR of all bytes written since the last Reset, Write reports full length and nil error, and Sum does not disturb the state.", "quantifier": "all histories", "why_tests_cant": "unbounded histories", "anchors": ["checksum/bcc/bcc.go"]}
{"id": "C35", "title": "BCC detects every single-byte change and ignores order", "statement": "Replacing one byte by a different one changes the BCC; permuting the bytes does not.", "quantifier": "all messages, positions, replacement bytes and permutations", "why_tests_cant": "unbounded", "anchors": ["checksum/bcc/bcc.go"]}
{"id": "C36", "title": "LRC of one Write is the two's complement of the byte sum", "statement": "After New (or Reset) and a single Write(p), Sum8 plus the sum of the bytes of p is 0 mod 256.", "quantifier": "all byte slices", "why_tests_cant": "unbounded", "anchors": ["checksum/lrc/lrc.go"]}
{"id": "C37", "title": "LRC does not depend on how the data is split into Writes", "statement": "Writing p in one call or in any number of consecutive calls gives the same Sum8 (the hash.Hash streaming contract).", "quantifier": "all messages and all splits", "why_tests_cant": "unbounded splits", "anchors": ["checksum/lrc/lrc.go:update"]}
{"id": "C38", "title": "Fletcher-16 equals its definition", "statement": "After writing data d, Sum16 is (B<<8)|A with A = sum d_i mod 255 and B = sum of the prefix sums mod 255; Write never panics, whatever the size or number of writes.", "quantifier": "all byte strings of every length, all chunkings", "why_tests_cant": "the deferred-modulo batching only matters beyond 5803 bytes and for particular intermediate sums", "anchors": ["checksum/fletcher/fletcher16.go:update"]}
{"id": "C39", "title": "Fletcher-32 equals its definition", "statement": "After one Write of d, Sum32 is (B<<16)|A over the little-endian 16-bit words of d (zero-padded) modulo 65535, with no intermediate overflow for any length.", "quantifier": "all byte strings of every length", "why_tests_cant": "batch size is 23 MB; overflow depends on every word", "anchors": ["checksum/fletcher/fletcher32.go:update"]}
{"id": "C40", "title": "Fletcher-64 equals its definition", "statement": "After one Write of d, Sum64 is (B<<32)|A over the little-endian 32-bit words of d (zero-padded) modulo 2^32-1, with no intermediate overflow for any length.", "quantifier": "all byte strings of every length", "why_tests_cant": "batch boundary is not word aligned (92681); overflow depends on every word", "anchors": ["checksum/fletcher/fletcher64.go:update"]}
{"id": "C41", "title": "Fletcher streaming", "statement": "Splitting the data into several Writes does not change the checksum (hash.Hash streaming contract).", "quantifier": "all messages and all splits, for 16, 32 and 64", "why_tests_cant": "unbounded splits; odd-length splits matter", "anchors": ["checksum/fletcher/fletcher16.go", "checksum/fletcher/fletcher32.go", "checksum/fletcher/fletcher64.go"]}
{"id": "C42", "title": "Checksum Sum is the big-endian SumN appended", "statement": "For every checksum and state, Sum(in) is in followed by the Size() big-endian bytes of Sum8/16/32/64, the state is unchanged, and Reset makes the object behave as new.", "quantifier": "all reachable states, all in", "why_tests_cant": "all states", "anchors": ["checksum/bcc/bcc.go:Sum", "checksum/lrc/lrc.go:Sum", "checksum/fletcher/fletcher16.go:Sum", "checksum/fletcher/fletcher32.go:Sum", "checksum/fletcher/fletcher64.go:Sum"]}
{"id": "C43", "title": "Luhn digit makes the number valid", "statement": "luhn.Checksum(i) is a digit 0..9 and appending it to the decimal representation of i yields a number that passes the Luhn check; it is the only such digit; no intermediate overflow.", "quantifier": "all 2^64 values of i", "why_tests_cant": "2^64 inputs", "anchors": ["checksum/luhn/luhn.go:Checksum"]}
{"id": "C44", "title": "Luhn detects single-digit errors and adjacent transpositions except 09/90", "statement": "If j differs from i in one decimal digit, or by swapping two different adjacent digits other than 0 and 9, then Checksum(j)!=Checksum(i).", "quantifier": "all i, all digit positions", "why_tests_cant": "2^64 numbers times positions", "anchors": ["checksum/luhn/luhn.go:Checksum"]}
{"id": "C45", "title": "Fletcher detects single-word errors", "statement": "Changing one 16-bit (32-bit) word of the data to a value not congruent modulo 2^16-1 (2^32-1) changes Fletcher-32 (-64); likewise one byte for Fletcher-16 within its working range.", "quantifier": "all messages, positions and replacement words", "why_tests_cant": "unbounded", "anchors": ["checksum/fletcher/fletcher16.go", "checksum/fletcher/fletcher32.go", "checksum/fletcher/fletcher64.go"]}
{"id": "C46", "title": "RIPEMD streaming", "statement": "For RIPEMD-128/160/256/320 and any interleaving of Write, Sum and Reset, each Sum(in) returns in followed by the digest of the concatenation of everything written since the last Reset; Write returns len(p),nil; nothing panics.", "quantifier": "all histories of operations for all four variants", "why_tests_cant": "unbounded histories; every block-boundary alignment", "anchors": ["hash/ripemd/shared.go:Write", "hash/ripemd/shared.go:Sum", "hash/ripemd/shared.go:Reset"]}
{"id": "C47", "title": "RIPEMD digests follow the published algorithm", "statement": "The digest is the published RIPEMD-128/160/256/320 function: MD4 padding with 64-bit little-endian bit length, the two parallel lines with the rho/pi message orders, the published shifts, constants and boolean functions.", "quantifier": "all messages shorter than 2^61 bytes (all messages, with the length taken mod 2^64 bits)", "why_tests_cant": "test vectors sample; one wrong table entry or line exchange must be excluded for every block and state", "anchors": ["hash/ripemd/ripe128.go:hash128", "hash/ripemd/ripe160.go:hash160", "hash/ripemd/ripe256.go:hash256", "hash/ripemd/ripe320.go:hash320", "hash/ripemd/shared.go"]}
{"id": "C48", "title": "RIPEMD tables have the published structure", "statement": "Each round's message order is a permutation of 0..15 generated by rho and pi, the shift tables of both lines come from one published table, and the additive constants are floor(2^30*sqrt(p)) and floor(2^30*cbrt(p)).", "quantifier": "all 80 steps of both lines, all rounds", "why_tests_cant": "a single wrong entry can survive few vectors", "anchors": ["hash/ripemd/shared.go:r", "hash/ripemd/shared.go:rr", "hash/ripemd/shared.go:s", "hash/ripemd/shared.go:ss", "hash/ripemd/shared.go:k", "hash/ripemd/shared.go:kk"]}
{"id": "C49", "title": "Whirlpool streaming", "statement": "For any interleaving of Write, Sum and Reset, each Sum(in) returns in followed by the digest of the concatenation of everything written since the last Reset; Write returns len(p),nil; nothing panics.", "quantifier": "all histories of operations", "why_tests_cant": "unbounded histories; every block-boundary alignment", "anchors": ["hash/whirlpool/whirlpool.go:Write", "hash/whirlpool/whirlpool.go:Sum", "hash/whirlpool/whirlpool.go:Reset"]}
{"id": "C50", "title": "Whirlpool digests follow the published algorithm", "statement": "The digest is the Whirlpool function: 256-bit big-endian bit-length padding, Miyaguchi-Preneel over the 10-round W cipher defined by SubBytes, ShiftColumns, MixRows (GF(2^8) mod x^8+x^4+x^3+x^2+1, circulant 1,1,4,1,8,5,2,9) and AddRoundKey.", "quantifier": "all messages shorter than 2^64 bytes", "why_tests_cant": "test vectors sample; the code uses merged lookup tables", "anchors": ["hash/whirlpool/whirlpool.go:hash", "hash/whirlpool/whirlpool.go:Sum"]}
{"id": "C51", "title": "Whirlpool tables are the generator's output", "statement": "The committed tables rc and ct equal what make_tables.go computes from the S-box, and the S-box is the one built from the published 4-bit mini-boxes.", "quantifier": "all 2048+10+256 entries", "why_tests_cant": "a wrong entry is exercised only by some inputs", "anchors": ["hash/whirlpool/whirlpool_tables.go", "hash/whirlpool/make_tables.go:buildCirculantTable", "hash/whirlpool/make_tables.go:buildRoundConstants"]}
{"id": "C52", "title": "Digest size and block size contracts", "statement": "For every hash and every reachable state len(Sum(in))==len(in)+Size(), the prefix is in, and Size/BlockSize never change.", "quantifier": "all histories", "why_tests_cant": "unbounded histories", "anchors": ["hash/ripemd/shared.go:Size", "hash/whirlpool/whirlpool.go:Size", "checksum/bcc/bcc.go:Size", "checksum/lrc/lrc.go:Size", "checksum/fletcher/fletcher16.go:Size", "checksum/fletcher/fletcher32.go:Size", "checksum/fletcher/fletcher64.go:Size"]}
{"id": "C53", "title": "Padding is injective", "statement": "Two different messages (shorter than 2^61 bytes for RIPEMD, 2^64 for Whirlpool) are never fed to the compression function as the same sequence of blocks; hence a digest collision yields a compression-function collision.", "quantifier": "all pairs of messages", "why_tests_cant": "pairs of unbounded messages", "anchors": ["hash/ripemd/shared.go:Sum", "hash/whirlpool/whirlpool.go:Sum"]}
{"id": "C54", "title": "Whirlpool's block cipher is a permutation", "statement": "For each chaining value the keyed transformation applied to the block is a bijection on 512-bit blocks, as Miyaguchi-Preneel requires.", "quantifier": "all 2^512 keys and blocks", "why_tests_cant": "2^1024 pairs", "anchors": ["hash/whirlpool/whirlpool.go:hash"]}
{"id": "C55", "title": "Platform byte order is detected correctly", "statement": "endian.Platform is LittleEndian on a platform that stores the low byte first, BigEndian on one that stores the high byte first; Network and SourceCode are BigEndian.", "quantifier": "both memory orders, all 16-bit values", "why_tests_cant": "one host has one order", "anchors": ["endian/endian.go:init"]}
{"id": "C56", "title": "Abbr abbreviates only long strings", "statement": "test.Abbr(s) is s if len(s)<=20, otherwise the first 19 bytes of s followed by an ellipsis; the result is at most 22 bytes.", "quantifier": "all strings", "why_tests_cant": "unbounded", "anchors": ["test/Abbr.go:Abbr"]}
{"id": "C57", "title": "StringMatch reports exactly on difference and never panics", "statement": "test.StringMatchTitle reports an error iff the two strings differ (two errors iff the lengths also differ) and never indexes out of range while rendering.", "quantifier": "all pairs of strings, all titles and prefixes, all rune splittings", "why_tests_cant": "pairs of unbounded strings with multi-byte runes", "anchors": ["test/StringMatch.go:StringMatchTitle", "test/StringMatch.go:findFirstMismatch", "test/StringMatch.go:findLastMismatch", "test/StringMatch.go:renderText"]}
{"id": "C58", "title": "IpTree ignores arguments that are not IPv4 addresses", "statement": "AddIp of a net.IP that is not an IPv4 address (IPv6, nil, wrong length) does not change the set of listed addresses.", "quantifier": "all histories and all net.IP values", "why_tests_cant": "A test can only try a few malformed addresses on a few trees; the claim is about every byte string of every length.", "anchors": ["net/IpTree.go:106-109", "net/Ipv4.go:12-18"]}
{"id": "C59", "title": "The string report highlights exactly the differing characters", "statement": "When two strings differ, StringMatchTitle shows in inverse video exactly the characters from the first to the last difference in both strings, and a marker line below them.", "quantifier": "all pairs of different strings, all titles, prefixes and character splittings", "why_tests_cant": "The existing tests use ASCII; the claim is about all strings, including multi-byte characters and invalid UTF-8.", "anchors": ["test/StringMatch.go:18-55", "test/StringMatch.go:58-101", "test/StringMatch.go:106-135"]}
{"id": "C60", "title": "HashTest passes exactly on the right digest", "statement": "HashTest(t,h,in,expectHex) reports nothing iff expectHex is the upper-case hexadecimal text of the digest of everything written to h followed by in; it never panics.", "quantifier": "all hash objects in all states, all inputs and expected texts", "why_tests_cant": "A test helper that accepts a wrong digest makes every test using it worthless; only a proof covers all digests and states.", "anchors": ["test/HashCompare.go:10-16"]}
{"id": "C61", "title": "HashHexTest passes only on the right digest of valid input", "statement": "HashHexTest(t,h,inHex,expectHex) reports nothing iff inHex is hexadecimal text and expectHex is the upper-case hexadecimal text of the digest of the bytes it stands for.", "quantifier": "all hash objects in all states, all texts, both builds of the hex package", "why_tests_cant": "Needs every invalid text; a typo in a test vector is exactly what nobody tests.", "anchors": ["test/HashCompare.go:18-25", "encoding/hex/hex.go:89-111"]}
{"id": "C62", "title": "Hex error text names the offending character and its position", "statement": "When ToBytes rejects a text because of a character, err.Error() is \"Invalid hex: \" followed by that character as it stands in the text, \" @ \" and its index in decimal; different errors have different texts.", "quantifier": "all texts (arbitrary bytes), both builds", "why_tests_cant": "All byte values and all positions; non-ASCII bytes are rarely tried.", "anchors": ["encoding/hex/hex.go:18-33"]}
{"id": "C63", "title": "The generated Whirlpool source declares exactly the computed tables", "statement": "The text make_tables.go passes to the formatter is Go source of package whirlpool declaring rounds=10 and the arrays rc and ct with exactly the computed (and committed) values; genVar does so for every name and table.", "quantifier": "all identifiers and all uint64 tables; the one run of the program", "why_tests_cant": "Needs every table length (separators and comments depend on the index) and every 64-bit value.", "anchors": ["hash/whirlpool/make_tables.go:64-77", "hash/whirlpool/make_tables.go:111-126", "hash/whirlpool/whirlpool_tables.go"]}
{"id": "C64", "title": "genConst writes a string constant of the table's bytes", "statement": "genConst(w,name,data) writes Go source declaring a string constant whose bytes are the little-endian bytes of the values of data.", "quantifier": "all identifiers and all uint64 slices", "why_tests_cant": "Every length and every 64-bit value; the empty table is a boundary nobody runs.", "anchors": ["hash/whirlpool/make_tables.go:90-109", "hash/whirlpool/make_tables.go:128-135"]}
{"id": "C65", "title": "IpTree values: exactly which value each CIDR has", "statement": "AddIp/AddCidr of a block within a listed CIDR changes nothing. Otherwise the block takes the value passed; while the other half of its parent is listed the two are replaced by the parent, whose value is merge(value of the lower half, value of the upper half); the CIDRs within the resulting block disappear and all others keep their values.", "quantifier": "all value types, merge functions, histories of calls, IPv4 addresses and networks", "why_tests_cant": "Depends on the whole history and on the order of the merge arguments; joins can cascade over 32 levels.", "anchors": ["net/IpTree.go:58-93", "net/IpTree.go:106-109", "net/IpTree.go:138-154"]}
{"id": "C66", "title": "AddRange adds the greedy split of the range, at most 62 CIDRs", "statement": "Whenever AddRange(start,end,v) returns, its effect (values included) is that of AddCidr(c,v) for the CIDRs c that split the range greedily from the start, in ascending order; there are at most 62 of them. The split is unique and covers exactly the range.", "quantifier": "all trees, values, merge functions and all IPv4 ranges", "why_tests_cant": "2^63 ranges; the bound 62 is reached only by ranges such as 0.0.0.1-255.255.255.254.", "anchors": ["net/IpTree.go:112-130"]}
{"id": "C67", "title": "LRC and BCC: data followed by its check byte checks to zero; LRC detects single-byte changes", "statement": "For LRC and BCC the check value of a message followed by its own check byte is 0. The LRC of two messages differing in exactly one byte differs; the LRC does not depend on the order of the bytes (messages written in one Write).", "quantifier": "all messages, positions, byte values and permutations", "why_tests_cant": "All messages of all lengths.", "anchors": ["checksum/lrc/lrc.go:19-40", "checksum/bcc/bcc.go:18-47"]}
{"id": "C68", "title": "Fletcher checksums: exactly which transpositions go unnoticed", "statement": "Swapping the words x and y at distance n leaves the Fletcher-16/32/64 checksum unchanged exactly when n*x = n*y modulo 255, 65535, 4294967295; so swapped neighbours that are not congruent are always detected (one Write; for Fletcher-16 of at most 5803 bytes).", "quantifier": "all messages, positions, distances and words", "why_tests_cant": "Depends on the distance modulo the factors of the modulus, for messages of any length.", "anchors": ["checksum/fletcher/fletcher16.go:27-72", "checksum/fletcher/fletcher32.go:26-78", "checksum/fletcher/fletcher64.go:26-87"]}
{"id": "C69", "title": "Luhn: exactly which twin errors go unnoticed", "statement": "Changing two adjacent equal digits aa to bb changes the Luhn check digit, except for 22/55, 33/66 and 44/77, which never change it.", "quantifier": "all uint64 payloads, positions and digits", "why_tests_cant": "2^64 payloads and 19 positions.", "anchors": ["checksum/luhn/luhn.go:10-20"]}
{"id": "C70", "title": "Length extension: digest and length determine how hashing continues behind the padding", "statement": "If an object hashed m to d, then an object whose state is the words of d, whose length is that of m with its padding and whose buffer position is 0 (buffer contents arbitrary) gives, for every further sequence of calls, the results of a new object to which m and the padding of m were written. So these hashes must not be used as MAC by prefixing a secret.", "quantifier": "RIPEMD-128/160/256/320 and Whirlpool; all messages, all continuations (writes, sums, resets), all buffer contents", "why_tests_cant": "All messages and all continuations; needs that nothing but the chaining value, length and position influences later results.", "anchors": ["hash/ripemd/shared.go:108-206", "hash/whirlpool/whirlpool.go:27-173"]}
{"id": "C71", "title": "RIPEMD: for a fixed block the rounds permute the registers", "statement": "RIPEMD-256 and -320: for every block and every y there is exactly one state to which hash adds y; in particular every block has exactly one fixed point. RIPEMD-128 and -160: for every 16 message words the rounds map the eight (ten) registers bijectively.", "quantifier": "all blocks, states, lengths and buffer positions", "why_tests_cant": "2^512 blocks and 2^256 or 2^320 states; a wrong register assignment loses information only on some of them.", "anchors": ["hash/ripemd/ripe128.go:29-39", "hash/ripemd/ripe160.go:31-42", "hash/ripemd/ripe256.go:14-82", "hash/ripemd/ripe320.go:14-102"]}
{"id": "C72", "title": "IP tree: exactly when the merge callback is called, and what a panicking or re-entrant one does", "statement": "With any callback (side effects, panics, use of the same tree, nil): a call for a CIDR within a listed one calls it never and changes nothing; otherwise it is called once per join with a listed buddy, smallest first, values in address order, and for nothing else. If it panics the call panics with the state the callback left and assigns nothing. If not, the outside state is the callback's and the list is that of C65 made from the list at the start of the call. AddRange is AddCidr of the greedy blocks up to the first panic, and ends if the range does not end in 255.255.255.255. A nil callback panics exactly when a join is needed. A nil *net.IPNet panics and changes nothing.", "quantifier": "all callbacks with any state, all trees reachable with any callbacks, all IPv4 arguments", "why_tests_cant": "The number and order of callback calls depend on the tree and the callback is arbitrary code; tests use one pure callback.", "anchors": ["net/IpTree.go:58-142"]}
{"id": "C73", "title": "IP tree: disjoint additions commute", "statement": "If no address is added by two of the calls, the list with its values is the same for every order of the calls, whatever the merge function (it need not be commutative or associative). If addresses are shared this fails: 10.0.0.4/31 before or after its two addresses gives different values.", "quantifier": "all lists of calls with IPv4 arguments whose address sets are pairwise disjoint, all permutations, all merge functions", "why_tests_cant": "The number of orders is factorial in the number of calls, and the merge function is arbitrary; tests use one order.", "anchors": ["net/IpTree.go:15-154"]}
{"id": "C74", "title": "IP tree: length of the list", "statement": "ListCidr has at most one entry for every AddIp and AddCidr call and 62 for every AddRange call.", "quantifier": "all histories of calls with IPv4 arguments, all merge functions", "why_tests_cant": "Histories are unbounded; a tree that leaves stale nodes behind shows only after particular joins.", "anchors": ["net/IpTree.go:15-154"]}
{"id": "C75", "title": "Fletcher checksums: exactly which errors in two words go unnoticed", "statement": "Data of the same length that differs in two words at distance n (x and y becoming x' and y') has the same Fletcher-16/32/64 exactly when x+y = x'+y' and n*x = n*x' modulo 2^k-1 (k = 8, 16, 32; Fletcher-16 up to 5803 bytes). So an error within two neighbouring words goes unnoticed only if it exchanges all-zero and all-one words, and two flipped bits in different words only if it is the same bit of both, flipped in opposite directions, in words whose distance is a multiple of 2^k-1.", "quantifier": "all data, positions, distances and pairs of words or bits", "why_tests_cant": "The shortest undetected two-bit error of Fletcher-32 is 131070 bytes apart, that of Fletcher-64 more than 17 gigabytes.", "anchors": ["checksum/fletcher/fletcher16.go:17-60", "checksum/fletcher/fletcher32.go:17-66", "checksum/fletcher/fletcher64.go:17-74"]}
{"id": "C76", "title": "Hexadecimal text: order, concatenation, case", "statement": "Texts made by FromBytes compare, as Go strings, as the byte strings do. The text of a concatenation is the concatenation of the texts. A text whose first part has an even number of characters is accepted by ToBytes exactly when both parts are, with the concatenated bytes. Two texts, one of which is accepted, give the same bytes exactly when they differ only in the case of letters.", "quantifier": "all byte strings and texts of any length, both builds", "why_tests_cant": "The claims relate pairs of inputs of any length; tests check single inputs.", "anchors": ["encoding/hex/hex.go:36-111"]}
{"id": "C77", "title": "Hash objects and the caller's memory", "statement": "In programs with any number of objects that share memory between calls: every object returns what a lone object returns for the same method calls, with the bytes the arguments had at the time of the call; RIPEMD, Whirlpool and BCC never panic and are right. Write, Reset, Size, BlockSize and the SumN methods leave the caller's memory alone. Sum(in) overwrites exactly the Size() bytes after in if the capacity of in has room for them, and then returns the same array; otherwise it returns new memory and changes nothing allocated before. A returned digest keeps its bytes until the program stores into it or passes Sum a slice whose spare capacity meets it. Two Sum calls with the same spare capacity return the same slice, so the second digest replaces the first.", "quantifier": "all programs (sequences of creations, method calls, stores, allocations), all overlaps of slices, all choices of spare capacity by append", "why_tests_cant": "Aliasing between arguments, results and later stores depends on the whole program; tests use one object and fresh slices.", "anchors": ["hash/ripemd/shared.go:144-210", "hash/whirlpool/whirlpool.go:101-173", "checksum/fletcher/fletcher16.go:60", "checksum/fletcher/fletcher32.go:66", "checksum/fletcher/fletcher64.go:74", "checksum/bcc/bcc.go:33", "checksum/lrc/lrc.go:32"]}
{"id": "C78", "title": "Diffusion of Whirlpool's rounds", "statement": "The XOR of eight table entries that the round loop computes for a word: if d > 0 of the eight bytes it selects differ between two states, the results differ in at least 9-d bytes (branch number 9), and if none differs the results are equal. If the states before a round differ in one byte, all 64 bytes differ two rounds later. From different states, the states entering any four consecutive rounds differ in at least 81 bytes altogether, and those entering the ten rounds in at least 171. For every non-zero input difference and every output difference at most 8 inputs of the S-box have both.", "quantifier": "all pairs of states, all keys, all rounds, all values left in the scratch array; all S-box differences", "why_tests_cant": "The number of pairs of 512-bit states is beyond enumeration; a wrong table entry that no test message reaches weakens the diffusion without changing any tested digest.", "anchors": ["hash/whirlpool/whirlpool.go:63-91", "hash/whirlpool/make_tables.go:28-47", "hash/whirlpool/whirlpool_tables.go"]}
{"id": "C79", "title": "Addition with operands that overlap in any way", "statement": "AddNLE/AddNBE with len(sum)>=N/8 and any overlap of sum, a and b: no panic and no error; sum[0:N/8] becomes the number it holds once a has been stored there plus the number made of the bytes of b as they are read, where a byte of b that lies in a 32-bit word of sum already done is read as the result byte and any other as it is once a is stored; the carry is the rest and no byte outside is written (besides those C29 gives for big-endian). This equation has exactly one solution. If b starts at or after sum (little-endian), ends at or before the end of sum[0:N/8] (big-endian), or N is at most 32, the result is a plus what b holds once a is stored.", "quantifier": "all widths, both byte orders, all slices of all lengths, all memory layouts", "why_tests_cant": "the layouts are unbounded in number; tests use separate slices", "anchors": ["bytes/AddLE.go:addAnyLE", "bytes/AddBE.go:addAnyBE", "bytes/pad.go:padLE", "bytes/pad.go:padBE"]}
{"id": "C80", "title": "Accumulation into the second operand", "statement": "AddN(sum,a,sum) leaves a+sum in sum, as AddN(sum,sum,b) leaves sum+b.", "quantifier": "all widths, both byte orders, all values", "why_tests_cant": "aliasing layouts", "anchors": ["bytes/AddLE.go:Add16LE..Add512LE", "bytes/AddBE.go:Add16BE..Add512BE"]}
{"id": "C81", "title": "Short big-endian operands are padded as documented", "statement": "As the comments of AddBE.go say, an operand of AddNBE with fewer than N/8 bytes is zero padded at the end.", "quantifier": "all widths, all operands", "why_tests_cant": "all lengths and values", "anchors": ["bytes/AddBE.go:10-66"]}
{"id": "C82", "title": "The helpers that add one word", "statement": "addEq8, addEq16LE/BE and addEq32LE/BE add to the first 1, 2 or 4 bytes of sum the number in at most as many first bytes of b and the lowest bit of carryBit, return the carry-out, which is 0 or 1, and write nothing else, however b and sum overlap; they panic exactly if sum is shorter.", "quantifier": "all memories, slices, overlaps and all 256 carry bytes", "why_tests_cant": "carry bytes other than 0 and 1 and overlapping slices are not reached by the exported functions' tests", "anchors": ["bytes/Add.go:92-107", "bytes/AddLE.go:120-163", "bytes/AddBE.go:117-160"]}
{"id": "C83", "title": "Trees and lists do not depend on memory changed after the call", "statement": "In every program with any number of trees, in which arguments are slices of memory the program may change between calls: a tree depends only on the bytes its arguments had when it was called; ListCidr returns networks with exactly those addresses, in new variables and new memory, no two of which share a byte, and they keep their bytes until the program itself stores into them; no call changes memory allocated before; every call returns except ranges that end at 255.255.255.255 and LastIpv4 of too short networks.", "quantifier": "all programs, all memories and overlaps, all trees", "why_tests_cant": "tests never change a slice after passing it, or a result after getting it", "anchors": ["net/IpTree.go:106-154", "net/Ipv4.go:12-25", "net/Mask.go:12-23", "net/Cidr.go:12-41"]}
{"id": "C84", "title": "Slices returned by package net are new memory", "statement": "The slices returned by Ipv4FromUint, MaskFromByte, LastIpv4 and FirstIpv4 are new memory, so storing into them changes nothing else.", "quantifier": "all programs and memories", "why_tests_cant": "tests only compare the bytes of results", "anchors": ["net/Cidr.go:24-41", "net/Ipv4.go:21-25", "net/Mask.go:12-17"]}
{"id": "C85", "title": "The zero Tree is an empty tree without merge function", "statement": "A Tree declared without New behaves in every sequence of calls, with panics recovered, as one made by New(nil). A nil *Tree and nil *net.IPNet arguments panic.", "quantifier": "all sequences of calls, any arguments, any values", "why_tests_cant": "tests always use New with a function", "anchors": ["net/IpTree.go:58-154", "net/Cidr.go:12-41"]}
{"id": "C86", "title": "Fletcher-16: exact checksum for writes of every length", "statement": "In every sequence of calls with panics recovered, Write panics exactly for lengths above 5803 that are not multiples of 5803 and then changes nothing. After the writes that return, the first sum is right, and the second is smaller modulo 255 than the right one by the number of batches whose 32-bit sum wrapped. A batch of 5803 bytes wraps at most once, a shorter one never. So the checksum is right exactly if 255 divides the number of wraps.", "quantifier": "all sequences of Write, Sum, Sum16, Reset, Size, BlockSize; all data", "why_tests_cant": "tests write short strings; wrapping needs 5803 large bytes after a large sum", "anchors": ["checksum/fletcher/fletcher16.go:27-52"]}
{"id": "C87", "title": "The text of the checksum packages does what the model does", "statement": "The source text of checksum/bcc, lrc, fletcher and luhn, read by a lexer and parser for Go and run by an interpreter, does what the hand-written model does: constructors, Write, Sum, the integer sum, Reset, Size, BlockSize and Checksum return the same values, leave the same object, or panic, from every state of the object and every contents of memory.", "quantifier": "all programs containing the packages, all memories, all objects, all arguments, int of any size from 32 bits", "why_tests_cant": "tests see a few inputs; this ties every theorem about the model to the text of the code", "anchors": ["checksum/bcc/bcc.go:1-46", "checksum/lrc/lrc.go:1-40", "checksum/fletcher/fletcher16.go:1-71", "checksum/fletcher/fletcher32.go:1-78", "checksum/fletcher/fletcher64.go:1-87", "checksum/luhn/luhn.go:1-20"]}
{"id": "C88", "title": "Running the text of the checksum packages gives the checksums", "statement": "In every sequence of calls on a new object, running the source text gives: for bcc the XOR of all bytes; for lrc, with writes only to an empty or reset object, the negated sum; for Fletcher-32 and -64, with writes of whole words except the last, and for Fletcher-16, with writes of admissible lengths, the Fletcher checksum; Fletcher-16 panics for a first write longer than 5803 that is not a multiple of 5803. luhn.Checksum returns the only digit that makes the number valid.", "quantifier": "all sequences of Write, Sum, integer sum, Reset, Size, BlockSize; all data; all memories", "why_tests_cant": "all sequences of calls and all data", "anchors": ["checksum/bcc/bcc.go:1-46", "checksum/lrc/lrc.go:1-40", "checksum/fletcher/fletcher16.go:1-71", "checksum/fletcher/fletcher32.go:1-78", "checksum/fletcher/fletcher64.go:1-87", "checksum/luhn/luhn.go:1-20"]}
{"id": "C89", "title": "Running the text of package hex converts bytes and hexadecimal text", "statement": "The source text of hex.go with hex_256b.go or hex_tiny.go, read by the parser and run by the interpreter: FromBytes returns two upper-case digits per byte; ToBytes and ToBytesFast return a new slice with the value of an even number of digits of either case; for a text with a character that is no digit ToBytes returns nil and an error naming the leftmost such character and its index, for an odd number of digits ErrLength, and ToBytesFast nil in both cases; Error gives the character and the index in decimal. Memory that existed before is unchanged, and one array is added.", "quantifier": "all programs containing the package, both builds, all memories, all byte slices and texts whose length fits in an int, int of any size from 32 bits", "why_tests_cant": "all inputs and all memories, from the text of the code", "anchors": ["encoding/hex/hex.go:1-111", "encoding/hex/hex_256b.go:1-30", "encoding/hex/hex_tiny.go:1-36"]}
{"id": "C90", "title": "Running the text of package codegen gives literals that denote the input", "statement": "The source text of BytesToString.go and BytesToHexSep.go with that of package hex, read by the parser and run by the interpreter: BytesToString returns the quoted \\xHH form of the input, which denotes the input. For a section size of at least one and a non-empty input whose length is a multiple of it, BytesToStringSep returns the quoted sections joined by + and BytesToHexSep the body of a composite literal with a line break after each section, and both denote the input; for every other length, and for a section size below one, both panic. Memory that existed before the call is unchanged, also when it panics.", "quantifier": "all programs containing the packages, both builds of hex, all memories, all byte slices whose length times 16 plus 16 fits in an int, all section sizes of a 64-bit int, and for smaller ints all whose double fits", "why_tests_cant": "all inputs, section sizes and memories, from the text of the code", "anchors": ["codegen/BytesToString.go:1-71", "codegen/BytesToHexSep.go:1-51"]}
{"id": "C91", "title": "Running the text of package bytes zeroes, xors and adds as specified", "statement": "The source text of the six files of package bytes, read by the parser and run by the interpreter, does what the model does for Zero, XorEq and the eighteen Add functions, for every overlap of the slices. In terms of the program's arrays: Zero clears exactly its slice; XorEq returns the common length, xors that many bytes and keeps the others, if the slices do not overlap or dst does not start after other; AddNLE and AddN on a little-endian platform put (a+b) mod 2^N in the first N/8 bytes of sum with the rest as carry, if the used part of b does not overlap them and a is not a shorter slice with the start of sum; AddNBE and AddN on a big-endian platform likewise for b of at most N/8 bytes. A sum that is too short gives the error and no write, except that Add16 and Add32 panic. Nothing else in memory changes but for new objects.", "quantifier": "all programs containing the package with an int of at least 32 bits, both byte orders of the platform, all memories, all byte slices in it (the length of b, or of dst for XorEq, fits in an int)", "why_tests_cant": "all inputs, overlaps and memories, from the text of the code", "anchors": ["bytes/Add.go:1-107", "bytes/AddLE.go:1-163", "bytes/AddBE.go:1-160", "bytes/pad.go:1-47", "bytes/Xor.go:1-18", "bytes/Zero.go:1-16"]}
{"id": "C92", "title": "Running the text of package net does what the model does, and lists exactly the addresses added", "statement": "The source text of the four files of package net, read by the parser and run by the interpreter, does what the model does: Ipv4ToUint, Ipv4FromUint, MaskFromByte, MaskToByte, CidrEqual, FirstIpv4 and LastIpv4 (with its panics), and AddIp, AddCidr and AddRange with any callback that may panic, change memory and use the tree: a call ends exactly when it does in the model, with the same outcome and state. A program that makes a tree with New and a callback that computes a value, makes any calls on it that return, and does anything else in between, gets from ListCidr a new slice of networks: ascending, canonical, containing exactly the addresses added if the arguments were IPv4 at the time of the calls, and no other list of IPv4 networks with those addresses is shorter. Every call returns except AddRange with the end 255.255.255.255, which runs forever. Ipv4ToUint gives the number of an IPv4 address and 0 for anything else; MaskToByte the number of ones; CidrEqual of IPv4 networks compares mask and address; First- and LastIpv4 of a canonical network are the bounds of what it contains.", "quantifier": "all programs containing the package, all memories, byte slices, networks, trees, values, callbacks and sequences of calls", "why_tests_cant": "all inputs, memories, callbacks and histories, from the text of the code; non-termination cannot be observed by a test", "anchors": ["net/Cidr.go:1-59", "net/IpTree.go:1-154", "net/Ipv4.go:1-24", "net/Mask.go:1-23"]}
{"id": "C93", "title": "Running the text of package ripemd does what the model does", "statement": "The source text of ripe128.go, ripe160.go, ripe256.go, ripe320.go and shared.go, with that of package bytes, read by the parser and run by the interpreter, does what the model does: New128 to New320 make an object in its initial state; Write takes all bytes without error and changes the object to the next state; Sum appends the digest to its argument as append does and does not change the object; Reset, Size and BlockSize likewise. No call panics, and nothing else in memory changes but for new objects.", "quantifier": "all programs containing the packages with an int of at least 32 bits, all memories, all reachable objects, all byte slices outside the object (with a length that fits in an int for Write)", "why_tests_cant": "all inputs, states and memories, from the text of the code", "anchors": ["hash/ripemd/ripe128.go:1-55", "hash/ripemd/ripe160.go:1-60", "hash/ripemd/ripe256.go:1-91", "hash/ripemd/ripe320.go:1-111", "hash/ripemd/shared.go:1-210"]}
{"id": "C94", "title": "Running the text of package ripemd computes RIPEMD", "statement": "Every history of Write, Sum, Reset, Size and BlockSize on a new object, run from the text of the code, has exactly the results prescribed for the published RIPEMD-128, RIPEMD-160, RIPEMD-256 and RIPEMD-320 of what was written since the last Reset, and no other outcome.", "quantifier": "all programs containing the packages, all memories, all histories of calls with slices of representable length", "why_tests_cant": "all messages, chunkings and histories, from the text of the code", "anchors": ["hash/ripemd/ripe128.go:1-55", "hash/ripemd/ripe160.go:1-60", "hash/ripemd/ripe256.go:1-91", "hash/ripemd/ripe320.go:1-111", "hash/ripemd/shared.go:1-210"]}
{"id": "C95", "title": "Running the text of package whirlpool does what the model does", "statement": "For every program containing the text of hash/whirlpool (whirlpool.go and the tables of whirlpool_tables.go) and package bytes, every machine with ints of 32 or more bits, every memory, every object state with 8 words, a 64 byte block and a position below 64, and every argument: New, Write, Sum, Reset, Size and BlockSize, run by the interpreter, return what the hand-written model returns and leave the object in the state the model says, the rest of the memory unchanged.", "quantifier": "all programs containing the packages, all memories, object states, arguments and word sizes from 32 bits", "why_tests_cant": "the link from text to model for all states and memories, and the tables as they are written in the file", "anchors": ["hash/whirlpool/whirlpool.go:1-173", "hash/whirlpool/whirlpool_tables.go:1-656"]}
{"id": "C96", "title": "Running the text of package whirlpool computes Whirlpool", "statement": "Every history of Write, Sum, Reset, Size and BlockSize on a new object, run from the text of the code, has exactly the results prescribed for Whirlpool (length field modulo 2^64 bytes) of what was written since the last Reset, and no other outcome. For messages of fewer than 2^64 bytes in any chunks the digest is the published Whirlpool.", "quantifier": "all programs containing the packages, all memories, all histories of calls with slices of representable length", "why_tests_cant": "all messages, chunkings and histories, from the text of the code", "anchors": ["hash/whirlpool/whirlpool.go:1-173", "hash/whirlpool/whirlpool_tables.go:1-656"]}
{"id": "C97", "title": "Running the text of package test reports differences exactly", "statement": "The source text of test/Abbr.go, StringMatch.go and HashCompare.go, read by the parser and run by the interpreter: Abbr returns strings of up to 20 bytes unchanged and the first 19 bytes and an ellipsis of longer ones; StringMatch and StringMatchTitle return for every pair of strings, every title and prefix, without panicking, having passed to t.Errorf exactly the messages of the specification and changed nothing else; StringMatch adds no message exactly if the strings are equal.", "quantifier": "all programs containing the packages, all memories, all strings of representable length, all titles and prefixes", "why_tests_cant": "all pairs of strings, from the text of the code; a test helper that stays silent makes every test that uses it pass", "anchors": ["test/Abbr.go:1-14", "test/StringMatch.go:1-135", "test/HashCompare.go:1-25"]}
{"id": "C98", "title": "HashTest and HashHexTest, run on the hash packages, pass exactly for the right digest", "statement": "With the texts of package test, hex and a hash or checksum package: on an object used in any way before, HashTest and HashHexTest return and pass to t.Errorf the messages of comparing the expected text with the digest (of the published algorithm, of everything written since Reset, the tested input included) in upper-case hexadecimal; there is no message exactly if the expected text is that digest. For Fletcher-16 and inputs of more than 5803 bytes that are no multiple of it the test panics.", "quantifier": "all programs containing the packages, all memories, all earlier histories of calls, all inputs, all expected texts", "why_tests_cant": "says that the tests of the repository detect every wrong digest and accept every right one", "anchors": ["test/HashCompare.go:10-25", "test/StringMatch.go:1-135", "hash/ripemd/shared.go:1-180", "hash/whirlpool/whirlpool.go:1-173", "checksum/bcc/bcc.go:1-46"]}
{"id": "C99", "title": "Running the text of the generator computes the tables in the text of package whirlpool", "statement": "The source text of hash/whirlpool/make_tables.go, read by the parser and run by the interpreter: whatever the arrays held before, buildCirculantTable makes ct, and then buildRoundConstants makes rc, exactly the arrays of 2048 and 10 numbers that the text of whirlpool_tables.go declares, and they change nothing else in memory.", "quantifier": "all programs containing the generator, all memories, all earlier contents of the arrays, all widths of int of at least 32 bits", "why_tests_cant": "the generator is excluded from the build by a tag and has no tests; the claim is about its text and holds from every state", "anchors": ["hash/whirlpool/make_tables.go:25-62", "hash/whirlpool/make_tables.go:137-176", "hash/whirlpool/whirlpool_tables.go:1-656"]}
{"id": "C100", "title": "Running main of the generator writes a file that declares the committed tables, or nothing", "statement": "The text of make_tables.go, run: main gives format.Source one fixed text, which declares package whirlpool, the constant rounds and the arrays rc and ct with exactly the numbers of the text of package whirlpool, and nothing else. If format.Source succeeds and the file can be written, its result is written to whirlpool_tables.go, no other file is written, and main returns. If either fails, the program ends with no file written.", "quantifier": "all formatters, all behaviours of WriteFile, all memories after the program's variables, all files written before", "why_tests_cant": "the generator writes files and has no tests; the error branches depend on format.Source and os.WriteFile failing", "anchors": ["hash/whirlpool/make_tables.go:50-88", "hash/whirlpool/make_tables.go:111-126", "hash/whirlpool/whirlpool_tables.go:1-656"]}
{"id": "C101", "title": "What genVar and genConst of the generator write for any table, run from the text", "statement": "The text of make_tables.go, run, with that of package hex: for every identifier and every table of 64-bit numbers, genVar appends to a buffer of any contents Go source that declares an array variable of that name with those numbers; genConst appends Go source that declares a string constant with their bytes, least significant first, if the table is not empty, and text that is no declaration if it is. The appended text depends on name and table only. No other object is changed.", "quantifier": "all programs containing the generator, both builds of package hex, all memories, all identifiers, all tables of any length, all buffer contents", "why_tests_cant": "all names and tables; genConst is called by nothing", "anchors": ["hash/whirlpool/make_tables.go:90-135", "encoding/hex/hex.go:1-111"]}
{"id": "C102", "title": "init of package endian, run from its text, finds out the byte order of the machine", "statement": "The text of endian/endian.go, run on a machine that stores 16 bits in some way: if it stores the low byte first, Platform becomes binary.LittleEndian; if the high byte, binary.BigEndian; SourceCode and Network become binary.BigEndian. Platform.Uint16 of two bytes that the machine stored for a number gives that number. init panics exactly if the first byte of a stored 0xABCD is neither 0xAB nor 0xCD. Nothing else in memory is changed.", "quantifier": "all ways of storing 16 bits, all programs with the package, all memories after its variables, all numbers read back", "why_tests_cant": "a test runs on one machine; the panic branch needs a machine that does not exist", "anchors": ["endian/endian.go:11-39"]}
{"id": "C103", "title": "The text of package net, run on a zero Tree and on nil pointers", "statement": "A Tree declared without New, used by a program in any way with panics recovered: its calls end exactly as those on a tree made by New(nil), and ListCidr then returns the same list. A nil *Tree panics in every call except AddRange of an empty range; nil *net.IPNet arguments panic; no memory that was there is changed by these panics. getValue of a node is the value of an all node, nil otherwise.", "quantifier": "all programs with the package, all memories, all sequences of calls mixed with the program's own use of its memory", "why_tests_cant": "tests always use New with a function and never pass nil", "anchors": ["net/IpTree.go:20-57", "net/IpTree.go:95-154", "net/Cidr.go:12-41"]}
{"id": "C104", "title": "Any number of hash and checksum objects in one program, run from the text", "statement": "A program makes any number of objects of the ten hash and checksum types, calls their methods in any order with any slices that Go lets it have (nil, shared, with spare capacity), recovers from panics, and does anything else with the rest of memory. Every object answers exactly as the list of the slices written to it since its last Reset tells: BCC, RIPEMD-128/160/256/320 and Whirlpool as the published function of all bytes, LRC as the alternating sum of the slices, Fletcher-32/64 as the checksum of separately padded slices, Fletcher-16 with its lost carries, and a panicking Write leaves no trace. Every call Go allows has exactly one outcome; it changes no other memory except the array into which Sum appends; the argument keeps its bytes; no slice of an object is ever returned.", "quantifier": "all programs with the packages, all memories, all interleavings of calls on any number of objects, all slices, all histories", "why_tests_cant": "tests use one object at a time, with fresh slices, and stop at a panic; interleavings and histories are unbounded", "anchors": ["checksum/bcc/bcc.go:10-46", "checksum/lrc/lrc.go:8-40", "checksum/fletcher/fletcher16.go:9-71", "checksum/fletcher/fletcher32.go:9-78", "checksum/fletcher/fletcher64.go:9-87", "hash/ripemd/shared.go:90-210", "hash/whirlpool/whirlpool.go:20-173"]}
{"id": "C105", "title": "Any number of IP trees in one program, run from the text", "statement": "A program makes any number of trees with New, each with nil or a callback of its own that computes some function of its two arguments or panics, and may change the program's memory but does not use trees. It adds addresses, ranges and networks to them and lists them, in any order, recovers from panics, and does anything else with the rest of memory. Then each tree behaves as if it were alone: what its calls do and what its lists say depends only on the calls on that tree. Trees have different addresses. Every list is ascending, of well-formed networks, and no list of IPv4 networks of the same addresses is shorter; with IPv4 arguments it has all addresses of the calls on this tree that returned before, and no others than those and addresses of ranges whose addition panicked. Two trees asked the same, with callbacks that compute the same, answer the same, values included, also in different programs. The program can always go on: New and ListCidr return, every call to add ends unless it is for a range that ends at 255.255.255.255 (which can only panic), and changes no other tree.", "quantifier": "all programs with the package, all memories, all interleavings of calls on any number of trees, all arguments, all callbacks that do not use trees, all placements of panics", "why_tests_cant": "tests use one tree with one callback that does not panic; interleavings, histories and callbacks are unbounded", "anchors": ["net/IpTree.go:10-154", "net/Cidr.go:10-41"]}
{"id": "C106", "title": "Hash objects and trees in one program, run from the text of all packages", "statement": "A program makes any number of hash and checksum objects of the ten types and any number of IP trees, uses them in any order, recovers from panics, and does anything else with the rest of memory; the callbacks of the trees do not use trees or these objects, and slices that it hands to hash objects do not point into objects or trees. Then the run is, for the hash objects, a run as in C104 and, for the trees, a run as in C105: every hash object answers as its own history tells and every tree behaves as its own history tells. All have different addresses, and the run can always go on. The repository as a whole is one such program, on machines of either byte order, with ints of 32 to 64 bits and with either file of package hex; at its start it finds out the byte order that package bytes then uses.", "quantifier": "all programs with the packages, all memories, all interleavings of calls on any number of objects and trees, all arguments, all callbacks that leave objects and trees alone, all placements of panics; both builds, both byte orders, all sizes of int from 32 to 64 bits", "why_tests_cant": "each test uses one package by itself; interleavings and histories are unbounded", "anchors": ["checksum/bcc/bcc.go:1-46", "checksum/lrc/lrc.go:1-40", "checksum/fletcher/fletcher16.go:1-71", "hash/ripemd/shared.go:106-210", "hash/whirlpool/whirlpool.go:19-160", "net/IpTree.go:10-154", "endian/endian.go:10-39"]}
{"id": "C107", "title": "How large and how high a tree of addresses gets", "statement": "After any calls on a new tree it has at most two nodes for every bit of every prefix in its list, and one more; it is exactly as high as the longest prefix listed, so at most 32. One call with IPv4 arguments adds at most 64 nodes for every CIDR that it can add (1 for AddIp and AddCidr, 62 for AddRange), so the number of nodes is at most 64 times the sum of these over all calls, plus one.", "quantifier": "all histories of calls of any length, all merge functions, all values", "why_tests_cant": "tests do not look at the size of the tree, and histories are unbounded", "anchors": ["net/IpTree.go:42-57", "net/IpTree.go:58-93", "net/IpTree.go:95-154"]}
{"id": "C108", "title": "Calls of package net nest at most 36 deep and its loops turn at most 65 times, run from the text", "statement": "Whatever is in a tree and whatever its callback does, AddIp and AddCidr end with calls of the package nested at most 36 deep, ListCidr with calls nested at most three deeper than the tree is high, which is at most 35 after any use of the tree, and AddRange with calls nested and each of its loops turned at most 65 times, unless the range ends at 255.255.255.255. So none of them overflows the stack, and apart from such ranges no argument makes one of them slow.", "quantifier": "all programs with the package, all memories, all trees and callbacks (for add), all histories (for list), all arguments", "why_tests_cant": "tests run a few calls on small trees", "anchors": ["net/IpTree.go:42-57", "net/IpTree.go:58-93", "net/IpTree.go:95-154"]}
{"id": "C109", "title": "The syntax trees run for the files of the repository are those that the grammar of Go gives to their texts", "statement": "The lexer finds the tokens that a text spells by the lexical grammar (identifiers, numbers to base 2, 8, 10 and 16, strings with escapes, raw strings, characters, the longest operator, comments, inserted semicolons), whenever it spells any, and a text spells at most one list of tokens. What the parser finds for a text is a tree that the grammar gives to the tokens: declarations, types, statements, and expressions with the precedences of Go, associating to the left. So the tree that is run in place of each of the 33 files of the repository is a tree of its text.", "quantifier": "all texts (any list of lines), all token lists, all trees the parser finds; all files of the repository", "why_tests_cant": "tests of a parser compare a few texts with expected trees; the theorem covers every text and every tree the parser can find", "anchors": ["checksum/luhn/luhn.go:1-20", "net/IpTree.go:1-154", "hash/ripemd/shared.go:1-210", "hash/whirlpool/whirlpool.go:1-173"]}
{"id": "C110", "title": "What package net lists, run from the text, depends on the additions only", "statement": "Running the text of package net, every use of a tree gives one list and one only, and the list depends only on the calls made and on what the callback computes: not on the program, its memory, the size of int, where the arguments lie or what happened in between. Uses adding the same addresses list the same networks; calls that add no address twice may be made in any order; the list is sorted, disjoint, canonical and cannot be joined further for any arguments; one more call takes no address away, changes nothing if all it adds was listed, and otherwise changes the values as prescribed.", "quantifier": "all programs with the text, all memories, all histories of calls and callbacks that compute a function of their arguments, all pairs of such programs", "why_tests_cant": "tests run one program on one machine with a few additions", "anchors": ["net/IpTree.go:28-57", "net/IpTree.go:58-93", "net/IpTree.go:95-154"]}
{"id": "C111", "title": "Bursts, bit errors and digit errors: exactly which the checksums miss", "statement": "BCC notices every change of an odd number of bits and every burst of at most eight bits, and misses two turned bits exactly if they stand at the same place of their bytes (so it misses bursts of nine bits). LRC misses two turned bits in different bytes exactly if they stand at the same place and either were different or are the greatest bits. Luhn misses a change of two digits exactly if what they count changes by a multiple of ten; so transposed digits an even number of places apart are never noticed, transposed different digits an odd number of places apart always, except 0 and 9; and of the phonetic errors a0/1a exactly 20/12 at an odd place and 80/18 at an even place are missed.", "quantifier": "all byte strings, all bit positions, all 64-bit numbers, all digit positions", "why_tests_cant": "tests compute a few checksums; error classes are infinite families", "anchors": ["checksum/bcc/bcc.go:18-24", "checksum/lrc/lrc.go:19-25", "checksum/luhn/luhn.go:4-20"]}
{"id": "C112", "title": "The errors that the text of the checksum packages notices, between any two machines", "statement": "A sender and a receiver, running the text of a checksum package on machines that may differ in everything but that text (even in the size of int), get check values which differ, or agree, exactly as the theory of the checksum says: for BCC and LRC one wrong byte, reordering, odd numbers of bits, bursts, two bits, and a zero residue exactly for the right check byte; for Fletcher-16, -32 and -64 two wrong words, neighbouring words, transposed words, two bits; for Luhn one digit, transpositions, twins, phonetic errors.", "quantifier": "all pairs of programs with the text, all memories, all byte strings that a slice can hold, all numbers", "why_tests_cant": "tests run on one machine and compare a few values", "anchors": ["checksum/bcc/bcc.go:1-47", "checksum/lrc/lrc.go:1-40", "checksum/fletcher/fletcher16.go:1-72", "checksum/fletcher/fletcher32.go:1-78", "checksum/fletcher/fletcher64.go:1-87", "checksum/luhn/luhn.go:1-21"]}
{"id": "C113", "title": "Digests computed by the text of the hash packages: machine independence, collisions, length extension", "statement": "The digest that the text of packages ripemd and whirlpool computes is a function of the bytes written only, on every machine and however they are cut in pieces. If two runs, on any machines, give one digest for different byte strings, then hashing them meets a collision of the compression function. An object made from a digest and the length of an unknown message, put into the memory of any program, answers all further writing with the digests of the message, its padding and what was written.", "quantifier": "all pairs of programs with the texts, all memories, all byte strings (fewer than 2^61 bytes for ripemd collisions, 2^64 for whirlpool), all cuttings in pieces that slices can hold", "why_tests_cant": "tests compare a few digests with known values on one machine", "anchors": ["hash/ripemd/shared.go:1-210", "hash/ripemd/ripe128.go:1-55", "hash/ripemd/ripe160.go:1-60", "hash/ripemd/ripe256.go:1-91", "hash/ripemd/ripe320.go:1-111", "hash/whirlpool/whirlpool.go:1-173"]}
{"id": "C114", "title": "Whirlpool's tables against linear approximations", "statement": "For every mask of the input and every non-zero mask of the output of the S-box, the sum modulo 2 of the input bits under the one equals the sum of the output bits under the other for at least 100 and at most 156 of the 256 inputs. For every non-zero mask of the word that the XOR of eight table entries yields, with d of the mask's bytes non-zero, the sum modulo 2 of the bits under the mask depends on at least 9-d of the eight bytes of the state that are looked up.", "quantifier": "all pairs of S-box masks; all 2^64-1 masks of words, all eight words of the state, all states", "why_tests_cant": "Neither the masks of words nor the states can be enumerated, and a table entry with a wrong bit can leave all tested digests as they are.", "anchors": ["hash/whirlpool/whirlpool.go:63-91", "hash/whirlpool/make_tables.go:28-47", "hash/whirlpool/whirlpool_tables.go"]}
{"id": "C115", "title": "Running totals and counters kept with package bytes, run from the text", "statement": "A program that adds to a number kept in a slice with AddN(sum, sum, b) of package bytes, again and again and doing anything else in between that leaves the slice alone: every call returns without error; what the slice holds at the end and the carries, each worth 2^N, make up the number at the start and all that was added; the order of the additions, the machine and the size of int do not matter; big-endian totals are the reversed bytes of little-endian ones; a counter that adds one takes 2^N different values before it repeats one.", "quantifier": "all programs with the text, all memories, all widths, both byte orders and the platform's, all sequences of additions of at most N/8 bytes outside the slice", "why_tests_cant": "a 64-bit counter alone has more states than can be visited, and sequences of additions are unbounded", "anchors": ["bytes/Add.go:1-107", "bytes/AddLE.go:1-163", "bytes/AddBE.go:1-160", "bytes/pad.go:1-47"]}
{"id": "C116", "title": "The algebraic degree of Whirlpool's S-box", "statement": "Every sum modulo 2 of output bits of the S-box is given by exactly one polynomial modulo 2 of the input bits. For every non-empty choice of output bits this polynomial has degree exactly 7, the largest that a permutation of bytes allows. The S-box has no fixed point.", "quantifier": "all 255 choices of output bits and all 2^256 polynomials", "why_tests_cant": "tests of digests cannot see the degree, and the polynomials cannot be enumerated", "anchors": ["hash/whirlpool/make_tables.go:28-47", "hash/whirlpool/whirlpool_tables.go"]}
{"id": "C117", "title": "Generated Go text computes the bytes it was made from", "statement": "Put into a function `func F() string { return … }`, the text that BytesToString or BytesToStringSep returns for bytes is Go text that is lexed, parsed and loaded, and the function returns exactly these bytes in every program that contains it. The same holds of the text of BytesToHexSep after `[]byte` in a function that returns []byte: the function returns a new slice of these bytes and leaves other memory as it is. A text stands for one value only.", "quantifier": "all byte sequences, section sizes, builds and word sizes of the generating program, all programs and memories that run the result", "why_tests_cant": "a test compiles few generated files; the claim is about every byte sequence and every program that contains the text", "anchors": ["codegen/BytesToString.go", "codegen/BytesToHexSep.go"]}
{"id": "C118", "title": "The generated table file is the table file of the repository, read as Go", "statement": "The text that main of make_tables.go hands to format.Source is lexed and parsed to the syntax tree of the committed whirlpool_tables.go; so if format.Source keeps the tree, package whirlpool with the written file is the very package of the repository. For every identifier and every table, what genVar appends declares a variable with these numbers, and what genConst appends a string constant with their bytes, least significant first, when the file `package p` with that text is lexed, parsed and loaded. If the name is a keyword, or for genConst the table is empty, the text is no Go.", "quantifier": "all names, all tables of 64-bit numbers, all buffers, formatters, programs and memories", "why_tests_cant": "a test runs the generator on the two tables of the repository; the claim is about every table and name, and about every program that contains the written file", "anchors": ["hash/whirlpool/make_tables.go", "hash/whirlpool/whirlpool_tables.go"]}
{"id": "C119", "title": "Hexadecimal text between any two machines", "statement": "Programs with the text of package hex, each in a build of its own, on machines that may differ in everything else. ToBytes and ToBytesFast return for every text, with one array added to memory: bytes and no error, or nil and an error. Two programs get the same bytes or the same error of the same text. What FromBytes of one writes, both functions of the other read back; what one has read, the other writes with capital letters. Texts written by two programs are equal, and stand in order, exactly as the bytes do; texts read give the same bytes exactly when they differ in case only. One wrong character that is no digit is reported with its place; a wrong digit gives other bytes; a lost character or an added digit gives the error about the length.", "quantifier": "all pairs of programs and builds, all memories, all byte strings and texts whose length fits in an int, int of any size from 32 bits", "why_tests_cant": "tests run one build on one machine with a few texts; the claim relates pairs of runs in different programs", "anchors": ["encoding/hex/hex.go:36-111"]}
{"id": "C120", "title": "How many messages have a given check value", "statement": "Of the byte strings of length n+1 exactly 256^n have a given BCC, as the text of bcc.go computes it, and exactly 256^n a given LRC; so of the strings that can arrive in place of a given one, 256^n - 1 pass the check of the receiver, on whatever machine. Of the numbers of at most k+1 decimal digits (up to nineteen) exactly 10^k have a given Luhn check digit. A Fletcher checksum (16, 32 or 64 bits) never has a half that is all ones; every other value is taken by at least as many of the messages of n+2 words as there are messages of n words, and by at most four times as many.", "quantifier": "all programs with the text, all lengths that fit in an int of any size from 32 bits (for Fletcher-16 up to 5803 bytes in one write), all check values", "why_tests_cant": "the sets counted have up to 256^n elements for every n; a test sees a handful of messages, and even distribution cannot be observed on them", "anchors": ["checksum/bcc/bcc.go:1-47", "checksum/lrc/lrc.go:1-40", "checksum/fletcher/fletcher16.go:1-72", "checksum/fletcher/fletcher32.go:1-78", "checksum/fletcher/fletcher64.go:1-87", "checksum/luhn/luhn.go:1-21"]}
{"id": "C121", "title": "How long calls take", "statement": "The interpreter runs the text with a number that bounds how deep calls nest and how often each loop turns; a call ends, by returning or by panicking, when the number is large enough. It is enough, for the objects of packages bcc, lrc, fletcher, ripemd and whirlpool after any use of the object and with anything else in memory: 14 to make one, the length of the argument plus 22 for Write, 72 for Sum, 12 for every other method. For luhn.Checksum 22 is enough whatever the number (and 21 is not for the largest). For hex.FromBytes and codegen.BytesToString, BytesToStringSep and BytesToHexSep the number of bytes plus 3, for hex.ToBytes and ToBytesFast the number of characters plus 3, for bytes.Zero and XorEq the length plus 2, for the Add functions of package bytes the length of the sum plus 77, also with overlapping slices and on the error and panic paths.", "quantifier": "all programs with the text, all memories, arguments, section sizes and histories of use; int of any size from 32 bits", "why_tests_cant": "a test ends or does not for one input; a bound on the turns of every loop for every input and every earlier history cannot be observed", "anchors": ["checksum/bcc/bcc.go:1-47", "checksum/lrc/lrc.go:1-40", "checksum/fletcher/fletcher16.go:1-72", "checksum/fletcher/fletcher32.go:1-78", "checksum/fletcher/fletcher64.go:1-87", "checksum/luhn/luhn.go:1-21", "encoding/hex/hex.go:36-111", "hash/ripemd/shared.go:1-210", "hash/ripemd/ripe128.go:1-55", "hash/ripemd/ripe160.go:1-60", "hash/ripemd/ripe256.go:1-91", "hash/ripemd/ripe320.go:1-111", "hash/whirlpool/whirlpool.go:1-173", "codegen/BytesToString.go:1-71", "codegen/BytesToHexSep.go:1-51", "bytes/Add.go:1-107", "bytes/AddLE.go:1-163", "bytes/AddBE.go:1-160", "bytes/pad.go:1-47", "bytes/Xor.go:1-18", "bytes/Zero.go:1-16"]}
{"id": "C122", "title": "Writing one block: fixed points and permutations, run from the text", "statement": "Write of 64 bytes on an object whose buffer is empty, run from the text. In package ripemd (256 and 320 bits) there is, for every block and every y, exactly one state to which writing the block adds y, word by word. In particular every block has exactly one state that it leaves as it is, whatever the counted length and the buffer, and writing the block any number of times still leaves it. In package whirlpool there is, for every state and every y, exactly one block whose writing makes the state the exclusive or of the state before, the block and y; in particular (y = 0) every state has exactly one block that changes it by the words of the block alone.", "quantifier": "all programs with the text, all memories and addresses, blocks, states, counted lengths and buffers, all numbers of repetitions; int of any size from 32 bits", "why_tests_cant": "existence and uniqueness over 2^256 to 2^512 states; no fixed point is ever met by hashing test vectors", "anchors": ["hash/ripemd/shared.go:143-167", "hash/ripemd/ripe256.go:1-91", "hash/ripemd/ripe320.go:1-111", "hash/whirlpool/whirlpool.go:1-173"]}
{"id": "C123", "title": "Networks carried from one tree to another, run from the text", "statement": "What ListCidr of a tree returns, added entry by entry with AddCidr to a new tree, in any order and with any callback, is what ListCidr of the new tree returns: the same networks in the same order with the same values. The new tree may be one of another program. Such a copy can always be made. Added to a tree that is already in use, the entries add the addresses of the first tree to those of the second and nothing else. Every list of calls of AddIp, AddRange and AddCidr in which no range ends at 255.255.255.255 can be made, and ends with a list.", "quantifier": "all pairs of programs with the text, all memories, all histories of calls, all callbacks that compute a function of their arguments, all orders of the entries", "why_tests_cant": "the entries could merge, split or be lost for some trees and some orders only", "anchors": ["net/IpTree.go:28-57", "net/IpTree.go:58-93", "net/IpTree.go:95-154", "net/Mask.go:1-23"]}
{"id": "C124", "title": "Data that comes in pieces, run from the text", "statement": "What the texts of packages lrc and fletcher compute when data is written in pieces, between two programs. lrc.go: the byte sums of the pieces with alternating signs, the last negative; one more piece, even an empty one, turns the sign of everything before. Data in two pieces and at once give the same value exactly if the bytes of the first piece add up to a multiple of 128, which is so for exactly 2*256^n of the first pieces of length n+1. fletcher: every piece is filled up with zeros to whole words; pieces of whole words (except the last) agree with any other such pieces of the same data; a byte written apart after data that does not end with a whole word gives another checksum than at once, unless it is 0 and the words before it add up to a multiple of 256^k-1. A piece of more than 5803 bytes that is not a multiple of 5803 long makes fletcher16.go panic, whatever was written before.", "quantifier": "all pairs of programs with the text, all memories, all lists of pieces (for fletcher16 of at most 5802 bytes each); int of any size from 32 bits", "why_tests_cant": "the values depend on where the data is cut; a test cuts one text at a few places", "anchors": ["checksum/lrc/lrc.go:1-40", "checksum/fletcher/fletcher16.go:1-72", "checksum/fletcher/fletcher32.go:1-78", "checksum/fletcher/fletcher64.go:1-87"]}
{"id": "C125", "title": "Parity and masks kept with XorEq, run from the text", "statement": "A program xors byte strings into a slice with XorEq of package bytes, again and again, and in between does anything that leaves the bytes of the slice alone. Every such call returns the number of bytes it reaches and changes only these. At the end every byte of the slice is the exclusive or of what it was and of the bytes at its place in all strings, so the order of the strings does not matter, also between programs. Strings of which each was xored in twice leave the slice as it was. If the slice was zero and one of the strings is lost, another program that xors the slice and all other strings into zeros gets the lost one back. The block check character that bcc.go computes of the slice is that of the slice at the start followed by all strings, if none is longer than the slice.", "quantifier": "all pairs of programs with the text, all memories, all slices, all lists of strings outside the slice of any lengths, all orders; int of any size that holds the length", "why_tests_cant": "the lengths, the places in memory, the number of strings and what the program does in between are unbounded", "anchors": ["bytes/Xor.go:1-19", "checksum/bcc/bcc.go:1-46"]}
{"id": "C126", "title": "Lists of networks compared with CidrEqual and carried as ranges, run from the text", "statement": "CidrEqual of two entries of one list of ListCidr is true exactly if they are at the same place. The lists of two trees, compared place by place with CidrEqual, are as long and all equal exactly if the same addresses were added to both trees, in whatever order, form and number of calls. What a tree lists, added entry by entry with AddRange from FirstIpv4 to LastIpv4 of the network, in any order and with any callback, to a new tree, is listed by that tree: the same networks in the same order with the same values. This can always be done unless 255.255.255.255 is listed; the AddRange for the entry that has that address never returns. The trees and the functions may be those of three different programs.", "quantifier": "all triples of programs with the text, all memories, all histories of calls (with IPv4 arguments for the comparison of two trees), all callbacks that compute a function of their arguments, all orders of the entries", "why_tests_cant": "whether the range of a network is split into just that network depends on all its 32 bits and on the state of the tree; histories are unbounded", "anchors": ["net/Cidr.go:11-40", "net/IpTree.go:95-154"]}
{"id": "C127", "title": "One call on a tree for another, run from the text", "statement": "Which of AddIp, AddCidr and AddRange is called on a tree, and in which form the arguments are (4 or 16 bytes, bits behind the mask), does not matter for IPv4 arguments: if every call on one tree adds the same addresses with the same value as the call at that place on another tree, both list the same networks with the same values, whatever the callback computes. In particular one address may be added by AddIp, by AddCidr with a mask of all ones, or by AddRange from it to itself. A range that ends before it starts adds nothing.", "quantifier": "all pairs of programs with the text, all memories, all histories of calls with IPv4 arguments that return, all callbacks that compute a function of their arguments", "why_tests_cant": "the values merged on the way depend on how a call is split into blocks and on the whole history; a test compares a few calls on a few trees", "anchors": ["net/IpTree.go:58-93", "net/IpTree.go:105-142", "net/Ipv4.go:11-24", "net/Mask.go:11-23"]}
{"id": "C128", "title": "The value of a network that the tree put together, run from the text", "statement": "Let no two calls of AddIp and AddCidr on a tree add one address, and let the callback be associative. Then the value of every network that ListCidr returns is the merge, from the lowest address up, of the values of the calls whose networks lie in it, each taken once: the steps in which the tree joined networks, and the order of the calls, do not show. With calls of AddRange the same holds if the value of the call is taken once for every network of the greedy split of its range. If the callback is also idempotent, the value of every listed network is the merge of the values of the calls, of all three kinds, that add an address of it, each taken once, from the lowest addresses up. In particular, if single addresses are each added once with the number 1 and the callback adds numbers, the value of every listed network is the number of addresses in it.", "quantifier": "all programs with the text, all memories, all histories of AddIp, AddCidr and AddRange calls with IPv4 arguments of which no two add one address, all associative callbacks that compute a function of their arguments", "why_tests_cant": "a network of the list may be put together from up to 2^32 calls in any order, and every order joins in other steps", "anchors": ["net/IpTree.go:54-93", "net/IpTree.go:95-154"]}
{"id": "C129", "title": "Trees of several programs put together, run from the text", "statement": "Deal calls of AddIp, AddCidr and AddRange, of which no two add one address, out to any number of programs, each with a tree of its own whose callback computes the same function. If one more program adds the entries that these trees list, in any order, to a new tree with such a callback, that tree lists exactly what a single tree lists on which all the calls are made, in any order: the same networks in the same order with the same values. Nothing is asked of the function; it need not be associative. With an address that is added twice the values may differ.", "quantifier": "all programs with the text, all memories, all numbers of trees, all ways to deal out all histories with IPv4 arguments of which no two add one address, all orders of adding the listed entries, all callbacks that compute a function of their arguments", "why_tests_cant": "the number of trees, the ways to deal out calls and the orders are unbounded, and the values are of any type", "anchors": ["net/IpTree.go:54-98", "net/IpTree.go:100-154"]}
{"id": "C130", "title": "Check values of data put together or changed in place, run from the text", "statement": "Only the check values of two texts p and q are known, each computed by a program of its own. Then the BCC of p followed by q is the exclusive or of the two values, in whatever pieces the texts are written; the LRC of a text written at once is the sum of the two modulo 256; a Fletcher checksum, if p has whole words, has as low half the sum of the low halves, and as high half the sum of the high halves and of the low half of p once for every word of q, all modulo 2^8-1, 2^16-1 or 2^32-1. The Luhn digit of a number followed by an even number of decimal digits is the sum modulo 10 of the digits of the two numbers. If a part p of a text is replaced by q, the new BCC and LRC follow from the old value and those of p and q alone, and the new Fletcher checksum, if p and q are as many whole words at a word boundary, from these and the number of words after them.", "quantifier": "all programs with the text, all texts shorter than the largest int (Fletcher-16: at most 5803 bytes), all ways to cut or replace, all 64-bit numbers", "why_tests_cant": "texts, cuts and replacements are unbounded, and the moduli 2^k-1 show a wrong reduction only for rare sums", "anchors": ["checksum/bcc/bcc.go:1-47", "checksum/lrc/lrc.go:1-40", "checksum/fletcher/fletcher16.go:1-72", "checksum/fletcher/fletcher32.go:1-78", "checksum/fletcher/fletcher64.go:1-87", "checksum/luhn/luhn.go:1-21"]}
{"id": "C131", "title": "Addresses looked up and counted in a list of networks, run from the text", "statement": "Of every entry that ListCidr returns, any program with the text can find the numbers of the first and the last address with FirstIpv4, LastIpv4 and Ipv4ToUint. These numbers ascend and the entries do not overlap, so every address number has exactly one place in the list, before which the first numbers are at most that number and from which on they are greater. The address lies in the entry before its place exactly if it is at most the last number of that entry, and in no other entry; so this one comparison tells whether any call added the address, and which value is listed for it. The sizes last - first + 1 of all entries add up to the number of different addresses added.", "quantifier": "all programs with the text, all memories, all histories of AddIp, AddCidr and AddRange calls with IPv4 arguments, all callbacks that compute a function of their arguments, all address numbers", "why_tests_cant": "histories and lists are unbounded and a wrong end of one network shows only for the addresses beside it", "anchors": ["net/Cidr.go:1-59", "net/Ipv4.go:1-24", "net/IpTree.go:54-154"]}
