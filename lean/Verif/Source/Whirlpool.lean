import Verif.Lang.Parser

/-!
# Source of hash/whirlpool/whirlpool.go

The text of the file, line by line without line ends, and its syntax tree as found by the parser. Generated by `tools/source.py`.
-/
namespace Source.Whirlpool
open GoLang

/-- The text. -/
def src : List String := [
r#"// Copyright 2022 gnabgib"#,
r#"// This Source Code Form is subject to the terms of the Mozilla Public License v2.0"#,
r#""#,
r#"package whirlpool"#,
r#""#,
r#"import ("#,
r#"	"encoding/binary""#,
r#"	"hash""#,
r#""#,
r#"	"github.com/gnabgib/gnablib-go/bytes""#,
r#")"#,
r#""#,
r#"//https://en.wikipedia.org/wiki/Whirlpool_(hash_function)"#,
r#"//https://www2.seas.gwu.edu/~poorvi/Classes/CS381_2007/Whirlpool.pdf"#,
r#""#,
r#"//Limitation: Whirlpool can run on data of length 2^256 bits or 2^253 bytes, but"#,
r#"// we only track up to 2^64 bytes.. 2^67 bits because of size being tracked in bytes with a uint64"#,
r#""#,
r#"const ("#,
r#"	blockSizeBytes  = 64"#,
r#"	blockSizeU64    = blockSizeBytes >> 3 // /8"#,
r#"	digestSizeBytes = blockSizeBytes"#,
r#"	digestSizeU64   = digestSizeBytes >> 3 // /8"#,
r#"	lengthBytes     = 32                   //256bits"#,
r#")"#,
r#""#,
r#"type ctx struct {"#,
r#"	state    [blockSizeU64]uint64 //Runtime state of hash"#,
r#"	lenBytes uint64               //Number of bytes added to state (in total)"#,
r#"	block    [blockSizeBytes]byte //Temp processing block"#,
r#"	bPos     int                  //Position of data written to block"#,
r#"}"#,
r#""#,
r#"// A new hash for computing Whirlpool"#,
r#"func New() hash.Hash {"#,
r#"	c := &ctx{}"#,
r#"	c.Reset()"#,
r#"	return c"#,
r#"}"#,
r#""#,
r#"// aka transform"#,
r#"func (c *ctx) hash() {"#,
r#"	x := [blockSizeU64]uint64{}     // data"#,
r#"	K := [blockSizeU64]uint64{}     // round key"#,
r#"	state := [blockSizeU64]uint64{} // cipher state"#,
r#"	L := [blockSizeU64]uint64{}"#,
r#""#,
r#"	//Initialize K and state"#,
r#"	for i := 0; i < blockSizeU64; i++ {"#,
r#"		j := i * 8"#,
r#"		x[i] = uint64(c.block[j])<<56 |"#,
r#"			uint64(c.block[j+1])<<48 |"#,
r#"			uint64(c.block[j+2])<<40 |"#,
r#"			uint64(c.block[j+3])<<32 |"#,
r#"			uint64(c.block[j+4])<<24 |"#,
r#"			uint64(c.block[j+5])<<16 |"#,
r#"			uint64(c.block[j+6])<<8 |"#,
r#"			uint64(c.block[j+7])"#,
r#"		K[i] = c.state[i]"#,
r#"		state[i] = x[i] ^ K[i]"#,
r#"	}"#,
r#""#,
r#"	for r := 0; r < rounds; r++ {"#,
r#"		for i := 0; i < 8; i++ {"#,
r#"			L[i] = ct[K[i]>>56&0xff] ^"#,
r#"				ct[256|(K[(i-1)&7]>>48&0xff)] ^"#,
r#"				ct[512|(K[(i-2)&7]>>40&0xff)] ^"#,
r#"				ct[768|(K[(i-3)&7]>>32&0xff)] ^"#,
r#"				ct[1024|(K[(i-4)&7]>>24&0xff)] ^"#,
r#"				ct[1280|(K[(i-5)&7]>>16&0xff)] ^"#,
r#"				ct[1536|(K[(i-6)&7]>>8&0xff)] ^"#,
r#"				ct[1792|(K[(i-7)&7]&0xff)]"#,
r#"		}"#,
r#"		L[0] ^= rc[r]"#,
r#"		for i := 0; i < 8; i++ {"#,
r#"			//Update K for next round"#,
r#"			K[i] = L[i]"#,
r#"			L[i] ^= ct[state[i]>>56&0xff] ^"#,
r#"				ct[256|(state[(i-1)&7]>>48&0xff)] ^"#,
r#"				ct[512|(state[(i-2)&7]>>40&0xff)] ^"#,
r#"				ct[768|(state[(i-3)&7]>>32&0xff)] ^"#,
r#"				ct[1024|(state[(i-4)&7]>>24&0xff)] ^"#,
r#"				ct[1280|(state[(i-5)&7]>>16&0xff)] ^"#,
r#"				ct[1536|(state[(i-6)&7]>>8&0xff)] ^"#,
r#"				ct[1792|(state[(i-7)&7]&0xff)]"#,
r#"		}"#,
r#"		//L references state (in prior loop) so this needs to be separate"#,
r#"		for i := 0; i < 8; i++ {"#,
r#"			state[i] = L[i]"#,
r#"		}"#,
r#"	}"#,
r#""#,
r#"	//Miyaguchi-Preneel compression"#,
r#"	for i := 0; i < blockSizeU64; i++ {"#,
r#"		c.state[i] ^= state[i] ^ x[i]"#,
r#"	}"#,
r#"	c.bPos = 0"#,
r#"}"#,
r#""#,
r#"func (c *ctx) Write(p []byte) (n int, err error) {"#,
r#"	n = len(p)"#,
r#"	c.lenBytes += uint64(n)"#,
r#""#,
r#"	nToWrite := n"#,
r#"	space := blockSizeBytes - c.bPos"#,
r#"	for nToWrite > 0 {"#,
r#"		if space > nToWrite {"#,
r#"			//More space than data, copy the data in"#,
r#"			copy(c.block[c.bPos:], p)"#,
r#"			//Update block pos and return"#,
r#"			c.bPos += nToWrite"#,
r#"			return"#,
r#"		}"#,
r#"		//Otherwise write to the end of the space"#,
r#"		copy(c.block[c.bPos:], p[0:space])"#,
r#"		c.bPos += space"#,
r#"		c.hash()      //Process the block"#,
r#"		p = p[space:] //Re-slice for the next section"#,
r#"		nToWrite -= space"#,
r#"		space = blockSizeBytes //Max space from now on"#,
r#"	}"#,
r#"	return"#,
r#"}"#,
r#""#,
r#"func (c *ctx) Sum(in []byte) []byte {"#,
r#"	//Since sum isn't supposed to mutate the hash so far, make a copy"#,
r#"	h := *c"#,
r#""#,
r#"	const sizeSpace = blockSizeBytes - lengthBytes"#,
r#""#,
r#"	//There can never be 0 free bytes so write the separator"#,
r#"	h.block[h.bPos] = 0x80"#,
r#"	h.bPos++"#,
r#""#,
r#"	//If there's not enough space for the (enormous) size, zero out and hash"#,
r#"	if h.bPos > sizeSpace {"#,
r#"		bytes.Zero(h.block[h.bPos:])"#,
r#"		h.hash()"#,
r#"	}"#,
r#"	//Zero rest of bytes (over zero, but useful for size)"#,
r#"	bytes.Zero(h.block[h.bPos : blockSizeBytes-9])"#,
r#""#,
r#"	//Big endian size"#,
r#"	// Because we have length in bytes, not bits the shifts are all -3 (left 3)"#,
r#"	h.block[blockSizeBytes-1] = byte(c.lenBytes << 3)"#,
r#"	h.block[blockSizeBytes-2] = byte(c.lenBytes >> 5)"#,
r#"	h.block[blockSizeBytes-3] = byte(c.lenBytes >> 13)"#,
r#"	h.block[blockSizeBytes-4] = byte(c.lenBytes >> 21)"#,
r#"	h.block[blockSizeBytes-5] = byte(c.lenBytes >> 29)"#,
r#"	h.block[blockSizeBytes-6] = byte(c.lenBytes >> 37)"#,
r#"	h.block[blockSizeBytes-7] = byte(c.lenBytes >> 45)"#,
r#"	h.block[blockSizeBytes-8] = byte(c.lenBytes >> 53)"#,
r#"	h.block[blockSizeBytes-9] = byte(c.lenBytes >> 61)"#,
r#"	h.hash()"#,
r#""#,
r#"	out := make([]byte, digestSizeBytes)"#,
r#"	for i := 0; i < digestSizeU64; i++ {"#,
r#"		binary.BigEndian.PutUint64(out[i*8:], h.state[i])"#,
r#"	}"#,
r#"	return append(in, out...) //Shake it all about"#,
r#"}"#,
r#""#,
r#"func (c *ctx) Reset() {"#,
r#"	for i := 0; i < blockSizeU64; i++ {"#,
r#"		c.state[i] = 0"#,
r#"	}"#,
r#"	c.lenBytes = 0"#,
r#"	c.bPos = 0"#,
r#"}"#,
r#""#,
r#"func (c *ctx) Size() int { return digestSizeBytes }"#,
r#""#,
r#"func (c *ctx) BlockSize() int { return blockSizeBytes }"#,
r#""#]

def New : Decl :=
  .func 0 false 0 (n! "New") .nil (.cons 0 (.qual (n! "hash") (n! "Hash")) .nil) (.cons
    (.define [n! "c"] (.cons (.un .addr (.comp (.name (n! "ctx")) .nil)) .nil)) (.cons
    (.expr (.call (.sel (.id (n! "c")) (n! "Reset")) .nil false)) (.cons
    (.ret (.cons (.id (n! "c")) .nil)) .nil)))

def ctx_hash : Decl :=
  .func (n! "c") true (n! "ctx") (n! "hash") .nil .nil (.cons
    (.define [n! "x"] (.cons (.comp (.array (.id (n! "blockSizeU64")) (.name (n! "uint64"))) .nil) .nil)) (.cons
    (.define [n! "K"] (.cons (.comp (.array (.id (n! "blockSizeU64")) (.name (n! "uint64"))) .nil) .nil)) (.cons
    (.define [n! "state"] (.cons (.comp (.array (.id (n! "blockSizeU64")) (.name (n! "uint64"))) .nil) .nil)) (.cons
    (.define [n! "L"] (.cons (.comp (.array (.id (n! "blockSizeU64")) (.name (n! "uint64"))) .nil) .nil)) (.cons
    (.for (.define [n! "i"] (.cons (.int 0) .nil)) (.bin .lt (.id (n! "i")) (.id (n! "blockSizeU64"))) (.opAssign .add (.id (n! "i")) (.int 1)) (.cons
      (.define [n! "j"] (.cons (.bin .mul (.id (n! "i")) (.int 8)) .nil)) (.cons
      (.assign (.cons (.idx (.id (n! "x")) (.id (n! "i"))) .nil) (.cons (.bin .or (.bin .or (.bin .or (.bin .or (.bin .or (.bin .or (.bin .or (.bin .shl (.call (.id (n! "uint64")) (.cons (.idx (.sel (.id (n! "c")) (n! "block")) (.id (n! "j"))) .nil) false) (.int 56)) (.bin .shl (.call (.id (n! "uint64")) (.cons (.idx (.sel (.id (n! "c")) (n! "block")) (.bin .add (.id (n! "j")) (.int 1))) .nil) false) (.int 48))) (.bin .shl (.call (.id (n! "uint64")) (.cons (.idx (.sel (.id (n! "c")) (n! "block")) (.bin .add (.id (n! "j")) (.int 2))) .nil) false) (.int 40))) (.bin .shl (.call (.id (n! "uint64")) (.cons (.idx (.sel (.id (n! "c")) (n! "block")) (.bin .add (.id (n! "j")) (.int 3))) .nil) false) (.int 32))) (.bin .shl (.call (.id (n! "uint64")) (.cons (.idx (.sel (.id (n! "c")) (n! "block")) (.bin .add (.id (n! "j")) (.int 4))) .nil) false) (.int 24))) (.bin .shl (.call (.id (n! "uint64")) (.cons (.idx (.sel (.id (n! "c")) (n! "block")) (.bin .add (.id (n! "j")) (.int 5))) .nil) false) (.int 16))) (.bin .shl (.call (.id (n! "uint64")) (.cons (.idx (.sel (.id (n! "c")) (n! "block")) (.bin .add (.id (n! "j")) (.int 6))) .nil) false) (.int 8))) (.call (.id (n! "uint64")) (.cons (.idx (.sel (.id (n! "c")) (n! "block")) (.bin .add (.id (n! "j")) (.int 7))) .nil) false)) .nil)) (.cons
      (.assign (.cons (.idx (.id (n! "K")) (.id (n! "i"))) .nil) (.cons (.idx (.sel (.id (n! "c")) (n! "state")) (.id (n! "i"))) .nil)) (.cons
      (.assign (.cons (.idx (.id (n! "state")) (.id (n! "i"))) .nil) (.cons (.bin .xor (.idx (.id (n! "x")) (.id (n! "i"))) (.idx (.id (n! "K")) (.id (n! "i")))) .nil)) .nil))))) (.cons
    (.for (.define [n! "r"] (.cons (.int 0) .nil)) (.bin .lt (.id (n! "r")) (.id (n! "rounds"))) (.opAssign .add (.id (n! "r")) (.int 1)) (.cons
      (.for (.define [n! "i"] (.cons (.int 0) .nil)) (.bin .lt (.id (n! "i")) (.int 8)) (.opAssign .add (.id (n! "i")) (.int 1)) (.cons
        (.assign (.cons (.idx (.id (n! "L")) (.id (n! "i"))) .nil) (.cons (.bin .xor (.bin .xor (.bin .xor (.bin .xor (.bin .xor (.bin .xor (.bin .xor (.idx (.id (n! "ct")) (.bin .and (.bin .shr (.idx (.id (n! "K")) (.id (n! "i"))) (.int 56)) (.int 255))) (.idx (.id (n! "ct")) (.bin .or (.int 256) (.bin .and (.bin .shr (.idx (.id (n! "K")) (.bin .and (.bin .sub (.id (n! "i")) (.int 1)) (.int 7))) (.int 48)) (.int 255))))) (.idx (.id (n! "ct")) (.bin .or (.int 512) (.bin .and (.bin .shr (.idx (.id (n! "K")) (.bin .and (.bin .sub (.id (n! "i")) (.int 2)) (.int 7))) (.int 40)) (.int 255))))) (.idx (.id (n! "ct")) (.bin .or (.int 768) (.bin .and (.bin .shr (.idx (.id (n! "K")) (.bin .and (.bin .sub (.id (n! "i")) (.int 3)) (.int 7))) (.int 32)) (.int 255))))) (.idx (.id (n! "ct")) (.bin .or (.int 1024) (.bin .and (.bin .shr (.idx (.id (n! "K")) (.bin .and (.bin .sub (.id (n! "i")) (.int 4)) (.int 7))) (.int 24)) (.int 255))))) (.idx (.id (n! "ct")) (.bin .or (.int 1280) (.bin .and (.bin .shr (.idx (.id (n! "K")) (.bin .and (.bin .sub (.id (n! "i")) (.int 5)) (.int 7))) (.int 16)) (.int 255))))) (.idx (.id (n! "ct")) (.bin .or (.int 1536) (.bin .and (.bin .shr (.idx (.id (n! "K")) (.bin .and (.bin .sub (.id (n! "i")) (.int 6)) (.int 7))) (.int 8)) (.int 255))))) (.idx (.id (n! "ct")) (.bin .or (.int 1792) (.bin .and (.idx (.id (n! "K")) (.bin .and (.bin .sub (.id (n! "i")) (.int 7)) (.int 7))) (.int 255))))) .nil)) .nil)) (.cons
      (.opAssign .xor (.idx (.id (n! "L")) (.int 0)) (.idx (.id (n! "rc")) (.id (n! "r")))) (.cons
      (.for (.define [n! "i"] (.cons (.int 0) .nil)) (.bin .lt (.id (n! "i")) (.int 8)) (.opAssign .add (.id (n! "i")) (.int 1)) (.cons
        (.assign (.cons (.idx (.id (n! "K")) (.id (n! "i"))) .nil) (.cons (.idx (.id (n! "L")) (.id (n! "i"))) .nil)) (.cons
        (.opAssign .xor (.idx (.id (n! "L")) (.id (n! "i"))) (.bin .xor (.bin .xor (.bin .xor (.bin .xor (.bin .xor (.bin .xor (.bin .xor (.idx (.id (n! "ct")) (.bin .and (.bin .shr (.idx (.id (n! "state")) (.id (n! "i"))) (.int 56)) (.int 255))) (.idx (.id (n! "ct")) (.bin .or (.int 256) (.bin .and (.bin .shr (.idx (.id (n! "state")) (.bin .and (.bin .sub (.id (n! "i")) (.int 1)) (.int 7))) (.int 48)) (.int 255))))) (.idx (.id (n! "ct")) (.bin .or (.int 512) (.bin .and (.bin .shr (.idx (.id (n! "state")) (.bin .and (.bin .sub (.id (n! "i")) (.int 2)) (.int 7))) (.int 40)) (.int 255))))) (.idx (.id (n! "ct")) (.bin .or (.int 768) (.bin .and (.bin .shr (.idx (.id (n! "state")) (.bin .and (.bin .sub (.id (n! "i")) (.int 3)) (.int 7))) (.int 32)) (.int 255))))) (.idx (.id (n! "ct")) (.bin .or (.int 1024) (.bin .and (.bin .shr (.idx (.id (n! "state")) (.bin .and (.bin .sub (.id (n! "i")) (.int 4)) (.int 7))) (.int 24)) (.int 255))))) (.idx (.id (n! "ct")) (.bin .or (.int 1280) (.bin .and (.bin .shr (.idx (.id (n! "state")) (.bin .and (.bin .sub (.id (n! "i")) (.int 5)) (.int 7))) (.int 16)) (.int 255))))) (.idx (.id (n! "ct")) (.bin .or (.int 1536) (.bin .and (.bin .shr (.idx (.id (n! "state")) (.bin .and (.bin .sub (.id (n! "i")) (.int 6)) (.int 7))) (.int 8)) (.int 255))))) (.idx (.id (n! "ct")) (.bin .or (.int 1792) (.bin .and (.idx (.id (n! "state")) (.bin .and (.bin .sub (.id (n! "i")) (.int 7)) (.int 7))) (.int 255)))))) .nil))) (.cons
      (.for (.define [n! "i"] (.cons (.int 0) .nil)) (.bin .lt (.id (n! "i")) (.int 8)) (.opAssign .add (.id (n! "i")) (.int 1)) (.cons
        (.assign (.cons (.idx (.id (n! "state")) (.id (n! "i"))) .nil) (.cons (.idx (.id (n! "L")) (.id (n! "i"))) .nil)) .nil)) .nil))))) (.cons
    (.for (.define [n! "i"] (.cons (.int 0) .nil)) (.bin .lt (.id (n! "i")) (.id (n! "blockSizeU64"))) (.opAssign .add (.id (n! "i")) (.int 1)) (.cons
      (.opAssign .xor (.idx (.sel (.id (n! "c")) (n! "state")) (.id (n! "i"))) (.bin .xor (.idx (.id (n! "state")) (.id (n! "i"))) (.idx (.id (n! "x")) (.id (n! "i"))))) .nil)) (.cons
    (.assign (.cons (.sel (.id (n! "c")) (n! "bPos")) .nil) (.cons (.int 0) .nil)) .nil))))))))

def ctx_Write : Decl :=
  .func (n! "c") true (n! "ctx") (n! "Write") (.cons (n! "p") (.slice (.name (n! "byte"))) .nil) (.cons (n! "n") (.name (n! "int")) (.cons (n! "err") (.name (n! "error")) .nil)) (.cons
    (.assign (.cons (.id (n! "n")) .nil) (.cons (.call (.id (n! "len")) (.cons (.id (n! "p")) .nil) false) .nil)) (.cons
    (.opAssign .add (.sel (.id (n! "c")) (n! "lenBytes")) (.call (.id (n! "uint64")) (.cons (.id (n! "n")) .nil) false)) (.cons
    (.define [n! "nToWrite"] (.cons (.id (n! "n")) .nil)) (.cons
    (.define [n! "space"] (.cons (.bin .sub (.id (n! "blockSizeBytes")) (.sel (.id (n! "c")) (n! "bPos"))) .nil)) (.cons
    (.for .skip (.bin .gt (.id (n! "nToWrite")) (.int 0)) .skip (.cons
      (.ifs .skip (.bin .gt (.id (n! "space")) (.id (n! "nToWrite"))) (.cons
        (.expr (.call (.id (n! "copy")) (.cons (.slc (.sel (.id (n! "c")) (n! "block")) (.sel (.id (n! "c")) (n! "bPos")) .none) (.cons (.id (n! "p")) .nil)) false)) (.cons
        (.opAssign .add (.sel (.id (n! "c")) (n! "bPos")) (.id (n! "nToWrite"))) (.cons
        (.ret .nil) .nil))) .nil) (.cons
      (.expr (.call (.id (n! "copy")) (.cons (.slc (.sel (.id (n! "c")) (n! "block")) (.sel (.id (n! "c")) (n! "bPos")) .none) (.cons (.slc (.id (n! "p")) (.int 0) (.id (n! "space"))) .nil)) false)) (.cons
      (.opAssign .add (.sel (.id (n! "c")) (n! "bPos")) (.id (n! "space"))) (.cons
      (.expr (.call (.sel (.id (n! "c")) (n! "hash")) .nil false)) (.cons
      (.assign (.cons (.id (n! "p")) .nil) (.cons (.slc (.id (n! "p")) (.id (n! "space")) .none) .nil)) (.cons
      (.opAssign .sub (.id (n! "nToWrite")) (.id (n! "space"))) (.cons
      (.assign (.cons (.id (n! "space")) .nil) (.cons (.id (n! "blockSizeBytes")) .nil)) .nil)))))))) (.cons
    (.ret .nil) .nil))))))

def ctx_Sum : Decl :=
  .func (n! "c") true (n! "ctx") (n! "Sum") (.cons (n! "in") (.slice (.name (n! "byte"))) .nil) (.cons 0 (.slice (.name (n! "byte"))) .nil) (.cons
    (.define [n! "h"] (.cons (.un .deref (.id (n! "c"))) .nil)) (.cons
    (.const (n! "sizeSpace") (.bin .sub (.id (n! "blockSizeBytes")) (.id (n! "lengthBytes")))) (.cons
    (.assign (.cons (.idx (.sel (.id (n! "h")) (n! "block")) (.sel (.id (n! "h")) (n! "bPos"))) .nil) (.cons (.int 128) .nil)) (.cons
    (.opAssign .add (.sel (.id (n! "h")) (n! "bPos")) (.int 1)) (.cons
    (.ifs .skip (.bin .gt (.sel (.id (n! "h")) (n! "bPos")) (.id (n! "sizeSpace"))) (.cons
      (.expr (.call (.sel (.id (n! "bytes")) (n! "Zero")) (.cons (.slc (.sel (.id (n! "h")) (n! "block")) (.sel (.id (n! "h")) (n! "bPos")) .none) .nil) false)) (.cons
      (.expr (.call (.sel (.id (n! "h")) (n! "hash")) .nil false)) .nil)) .nil) (.cons
    (.expr (.call (.sel (.id (n! "bytes")) (n! "Zero")) (.cons (.slc (.sel (.id (n! "h")) (n! "block")) (.sel (.id (n! "h")) (n! "bPos")) (.bin .sub (.id (n! "blockSizeBytes")) (.int 9))) .nil) false)) (.cons
    (.assign (.cons (.idx (.sel (.id (n! "h")) (n! "block")) (.bin .sub (.id (n! "blockSizeBytes")) (.int 1))) .nil) (.cons (.call (.id (n! "byte")) (.cons (.bin .shl (.sel (.id (n! "c")) (n! "lenBytes")) (.int 3)) .nil) false) .nil)) (.cons
    (.assign (.cons (.idx (.sel (.id (n! "h")) (n! "block")) (.bin .sub (.id (n! "blockSizeBytes")) (.int 2))) .nil) (.cons (.call (.id (n! "byte")) (.cons (.bin .shr (.sel (.id (n! "c")) (n! "lenBytes")) (.int 5)) .nil) false) .nil)) (.cons
    (.assign (.cons (.idx (.sel (.id (n! "h")) (n! "block")) (.bin .sub (.id (n! "blockSizeBytes")) (.int 3))) .nil) (.cons (.call (.id (n! "byte")) (.cons (.bin .shr (.sel (.id (n! "c")) (n! "lenBytes")) (.int 13)) .nil) false) .nil)) (.cons
    (.assign (.cons (.idx (.sel (.id (n! "h")) (n! "block")) (.bin .sub (.id (n! "blockSizeBytes")) (.int 4))) .nil) (.cons (.call (.id (n! "byte")) (.cons (.bin .shr (.sel (.id (n! "c")) (n! "lenBytes")) (.int 21)) .nil) false) .nil)) (.cons
    (.assign (.cons (.idx (.sel (.id (n! "h")) (n! "block")) (.bin .sub (.id (n! "blockSizeBytes")) (.int 5))) .nil) (.cons (.call (.id (n! "byte")) (.cons (.bin .shr (.sel (.id (n! "c")) (n! "lenBytes")) (.int 29)) .nil) false) .nil)) (.cons
    (.assign (.cons (.idx (.sel (.id (n! "h")) (n! "block")) (.bin .sub (.id (n! "blockSizeBytes")) (.int 6))) .nil) (.cons (.call (.id (n! "byte")) (.cons (.bin .shr (.sel (.id (n! "c")) (n! "lenBytes")) (.int 37)) .nil) false) .nil)) (.cons
    (.assign (.cons (.idx (.sel (.id (n! "h")) (n! "block")) (.bin .sub (.id (n! "blockSizeBytes")) (.int 7))) .nil) (.cons (.call (.id (n! "byte")) (.cons (.bin .shr (.sel (.id (n! "c")) (n! "lenBytes")) (.int 45)) .nil) false) .nil)) (.cons
    (.assign (.cons (.idx (.sel (.id (n! "h")) (n! "block")) (.bin .sub (.id (n! "blockSizeBytes")) (.int 8))) .nil) (.cons (.call (.id (n! "byte")) (.cons (.bin .shr (.sel (.id (n! "c")) (n! "lenBytes")) (.int 53)) .nil) false) .nil)) (.cons
    (.assign (.cons (.idx (.sel (.id (n! "h")) (n! "block")) (.bin .sub (.id (n! "blockSizeBytes")) (.int 9))) .nil) (.cons (.call (.id (n! "byte")) (.cons (.bin .shr (.sel (.id (n! "c")) (n! "lenBytes")) (.int 61)) .nil) false) .nil)) (.cons
    (.expr (.call (.sel (.id (n! "h")) (n! "hash")) .nil false)) (.cons
    (.define [n! "out"] (.cons (.call (.id (n! "make")) (.cons (.ty (.slice (.name (n! "byte")))) (.cons (.id (n! "digestSizeBytes")) .nil)) false) .nil)) (.cons
    (.for (.define [n! "i"] (.cons (.int 0) .nil)) (.bin .lt (.id (n! "i")) (.id (n! "digestSizeU64"))) (.opAssign .add (.id (n! "i")) (.int 1)) (.cons
      (.expr (.call (.sel (.sel (.id (n! "binary")) (n! "BigEndian")) (n! "PutUint64")) (.cons (.slc (.id (n! "out")) (.bin .mul (.id (n! "i")) (.int 8)) .none) (.cons (.idx (.sel (.id (n! "h")) (n! "state")) (.id (n! "i"))) .nil)) false)) .nil)) (.cons
    (.ret (.cons (.call (.id (n! "append")) (.cons (.id (n! "in")) (.cons (.id (n! "out")) .nil)) true) .nil)) .nil)))))))))))))))))))

def ctx_Reset : Decl :=
  .func (n! "c") true (n! "ctx") (n! "Reset") .nil .nil (.cons
    (.for (.define [n! "i"] (.cons (.int 0) .nil)) (.bin .lt (.id (n! "i")) (.id (n! "blockSizeU64"))) (.opAssign .add (.id (n! "i")) (.int 1)) (.cons
      (.assign (.cons (.idx (.sel (.id (n! "c")) (n! "state")) (.id (n! "i"))) .nil) (.cons (.int 0) .nil)) .nil)) (.cons
    (.assign (.cons (.sel (.id (n! "c")) (n! "lenBytes")) .nil) (.cons (.int 0) .nil)) (.cons
    (.assign (.cons (.sel (.id (n! "c")) (n! "bPos")) .nil) (.cons (.int 0) .nil)) .nil)))

def ctx_Size : Decl :=
  .func (n! "c") true (n! "ctx") (n! "Size") .nil (.cons 0 (.name (n! "int")) .nil) (.cons
    (.ret (.cons (.id (n! "digestSizeBytes")) .nil)) .nil)

def ctx_BlockSize : Decl :=
  .func (n! "c") true (n! "ctx") (n! "BlockSize") .nil (.cons 0 (.name (n! "int")) .nil) (.cons
    (.ret (.cons (.id (n! "blockSizeBytes")) .nil)) .nil)

/-- The syntax tree. -/
def file : File := ⟨n! "whirlpool", [[101, 110, 99, 111, 100, 105, 110, 103, 47, 98, 105, 110, 97, 114, 121], [104, 97, 115, 104], [103, 105, 116, 104, 117, 98, 46, 99, 111, 109, 47, 103, 110, 97, 98, 103, 105, 98, 47, 103, 110, 97, 98, 108, 105, 98, 45, 103, 111, 47, 98, 121, 116, 101, 115]], [
  (.const (n! "blockSizeBytes") (.int 64)),
  (.const (n! "blockSizeU64") (.bin .shr (.id (n! "blockSizeBytes")) (.int 3))),
  (.const (n! "digestSizeBytes") (.id (n! "blockSizeBytes"))),
  (.const (n! "digestSizeU64") (.bin .shr (.id (n! "digestSizeBytes")) (.int 3))),
  (.const (n! "lengthBytes") (.int 32)),
  (.type (n! "ctx") (.struct (.cons (n! "state") (.array (.id (n! "blockSizeU64")) (.name (n! "uint64"))) (.cons (n! "lenBytes") (.name (n! "uint64")) (.cons (n! "block") (.array (.id (n! "blockSizeBytes")) (.name (n! "byte"))) (.cons (n! "bPos") (.name (n! "int")) .nil)))))),
  New,
  ctx_hash,
  ctx_Write,
  ctx_Sum,
  ctx_Reset,
  ctx_Size,
  ctx_BlockSize]⟩

/-- The parser finds this tree in the text. -/
theorem parsed : parse src = some file := by kernel_rfl

end Source.Whirlpool
