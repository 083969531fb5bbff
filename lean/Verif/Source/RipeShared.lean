import Verif.Lang.Parser

/-!
# Source of hash/ripemd/shared.go

The text of the file, line by line without line ends, and its syntax tree as found by the parser. Generated by `tools/source.py`.
-/
namespace Source.RipeShared
open GoLang

/-- The text. -/
def src : List String := [
r#"// Copyright 2022 gnabgib"#,
r#"// This Source Code Form is subject to the terms of the Mozilla Public License v2.0"#,
r#""#,
r#"package ripemd"#,
r#""#,
r#"import ("#,
r#"	"encoding/binary""#,
r#""#,
r#"	"github.com/gnabgib/gnablib-go/bytes""#,
r#")"#,
r#""#,
r#"//https://en.wikipedia.org/wiki/RIPEMD"#,
r#"//https://homes.esat.kuleuven.be/~bosselae/ripemd/rmd128.txt"#,
r#"//https://homes.esat.kuleuven.be/~bosselae/ripemd160.html (1996)"#,
r#""#,
r#"// Constants __ __ __ __ __ __ __ __ __ __ __ __ __ __ __ __ __ __"#,
r#""#,
r#"func f0(x, y, z uint32) uint32 { return x ^ y ^ z }         //Same as MD4-r3"#,
r#"func f1(x, y, z uint32) uint32 { return z ^ (x & (y ^ z)) } // like MD4-r1, optimize from (x&y)|(~x&z)"#,
r#"func f2(x, y, z uint32) uint32 { return (x | ^y) ^ z }"#,
r#"func f3(x, y, z uint32) uint32 { return y ^ (z & (x ^ y)) } // like MD4-r1, optimize from (x&z)|(y&~z)"#,
r#"func f4(x, y, z uint32) uint32 { return x ^ (y | ^z) }"#,
r#""#,
r#"const ("#,
r#"	r = "" +"#,
r#"		//r 0..15"#,
r#"		"\x00\x01\x02\x03\x04\x05\x06\x07\x08\x09\x0A\x0B\x0C\x0D\x0E\x0F" +"#,
r#"		//r 16..31"#,
r#"		"\x07\x04\x0D\x01\x0A\x06\x0F\x03\x0C\x00\x09\x05\x02\x0E\x0B\x08" +"#,
r#"		//r 32..47"#,
r#"		"\x03\x0A\x0E\x04\x09\x0F\x08\x01\x02\x07\x00\x06\x0D\x0B\x05\x0C" +"#,
r#"		//r 48..63"#,
r#"		"\x01\x09\x0B\x0A\x00\x08\x0C\x04\x0D\x03\x07\x0F\x0E\x05\x06\x02" +"#,
r#"		//r 64..79"#,
r#"		"\x04\x00\x05\x09\x07\x0C\x02\x0A\x0E\x01\x03\x08\x0B\x06\x0F\x0D""#,
r#"	rr = "" +"#,
r#"		//r' 0..15"#,
r#"		"\x05\x0E\x07\x00\x09\x02\x0B\x04\x0D\x06\x0F\x08\x01\x0A\x03\x0C" +"#,
r#"		//r' 16..31"#,
r#"		"\x06\x0B\x03\x07\x00\x0D\x05\x0A\x0E\x0F\x08\x0C\x04\x09\x01\x02" +"#,
r#"		//r' 32..47"#,
r#"		"\x0F\x05\x01\x03\x07\x0E\x06\x09\x0B\x08\x0C\x02\x0A\x00\x04\x0D" +"#,
r#"		//r' 48..63"#,
r#"		"\x08\x06\x04\x01\x03\x0B\x0F\x00\x05\x0C\x02\x0D\x09\x07\x0A\x0E" +"#,
r#"		//r' 64..79"#,
r#"		"\x0C\x0F\x0A\x04\x01\x05\x08\x07\x06\x02\x0D\x0E\x00\x03\x09\x0B""#,
r#"	s = "" +"#,
r#"		//s 0..15"#,
r#"		"\x0B\x0E\x0F\x0C\x05\x08\x07\x09\x0B\x0D\x0E\x0F\x06\x07\x09\x08" +"#,
r#"		//s 16..31"#,
r#"		"\x07\x06\x08\x0D\x0B\x09\x07\x0F\x07\x0C\x0F\x09\x0B\x07\x0D\x0C" +"#,
r#"		//s 32..47"#,
r#"		"\x0B\x0D\x06\x07\x0E\x09\x0D\x0F\x0E\x08\x0D\x06\x05\x0C\x07\x05" +"#,
r#"		//s 48..63"#,
r#"		"\x0B\x0C\x0E\x0F\x0E\x0F\x09\x08\x09\x0E\x05\x06\x08\x06\x05\x0C" +"#,
r#"		//s 64..79"#,
r#"		"\x09\x0F\x05\x0B\x06\x08\x0D\x0C\x05\x0C\x0D\x0E\x0B\x08\x05\x06""#,
r#"	ss = "" +"#,
r#"		//s' 0..15"#,
r#"		"\x08\x09\x09\x0B\x0D\x0F\x0F\x05\x07\x07\x08\x0B\x0E\x0E\x0C\x06" +"#,
r#"		//s' 16..31"#,
r#"		"\x09\x0D\x0F\x07\x0C\x08\x09\x0B\x07\x07\x0C\x07\x06\x0F\x0D\x0B" +"#,
r#"		//s' 32..47"#,
r#"		"\x09\x07\x0F\x0B\x08\x06\x06\x0E\x0C\x0D\x05\x0E\x0D\x0D\x07\x05" +"#,
r#"		//s' 48..63"#,
r#"		"\x0F\x05\x08\x0B\x0E\x0E\x06\x0E\x06\x09\x0C\x09\x0C\x05\x0F\x08" +"#,
r#"		//s' 64..79"#,
r#"		"\x08\x05\x0C\x09\x0C\x05\x0E\x06\x08\x0D\x06\x05\x0F\x0D\x0B\x0B""#,
r#"	//0,int(2**30 x sqrt(2)), int(2**30 x sqrt(3)),int(2**30 x sqrt(5)),int(2**30 x sqrt(7))"#,
r#"	k = "\x00\x00\x00\x00" +"#,
r#"		"\x5a\x82\x79\x99" +"#,
r#"		"\x6e\xd9\xeb\xa1" +"#,
r#"		"\x8f\x1b\xbc\xdc" +"#,
r#"		"\xa9\x53\xfd\x4e""#,
r#"	// int(2**30 x cbrt(2)),int(2**30 x cbrt(3)),int(2**30 x cbrt(5)),int(2**30 x cbrt(7)),0"#,
r#"	kk = "\x50\xa2\x8b\xe6" +"#,
r#"		"\x5c\x4d\xd1\x24" +"#,
r#"		"\x6d\x70\x3e\xf3" +"#,
r#"		"\x7a\x6d\x76\xe9" +"#,
r#"		"\x00\x00\x00\x00""#,
r#"	// In 128/256 the last constant of the parallel set is zeroed, but otherwise notice these are the same as @see kk"#,
r#"	kk128 = "\x50\xa2\x8b\xe6" +"#,
r#"		"\x5c\x4d\xd1\x24" +"#,
r#"		"\x6d\x70\x3e\xf3" +"#,
r#"		"\x00\x00\x00\x00""#,
r#"	iv = "\x67\x45\x23\x01" +"#,
r#"		"\xef\xcd\xab\x89" +"#,
r#"		"\x98\xba\xdc\xfe" +"#,
r#"		"\x10\x32\x54\x76" +"#,
r#"		"\xc3\xd2\xe1\xf0""#,
r#"	iv2 = "\x76\x54\x32\x10" +"#,
r#"		"\xfe\xdc\xba\x98" +"#,
r#"		"\x89\xab\xcd\xef" +"#,
r#"		"\x01\x23\x45\x67" +"#,
r#"		"\x3c\x2d\x1e\x0f""#,
r#"	u32Size        = 4  //int(unsafe.Sizeof(uint32(0)))"#,
r#"	blockSizeBytes = 64 //512 bits"#,
r#"	blockSizeU32   = blockSizeBytes / u32Size"#,
r#"	sizeSpace      = blockSizeBytes - 2*u32Size //64bit uint representing size"#,
r#")"#,
r#""#,
r#"var ("#,
r#"	f = [...]func(x, y, z uint32) uint32{f0, f1, f2, f3, f4}"#,
r#")"#,
r#""#,
r#"// Shared Context/Algo__ __ __ __ __ __ __ __ __ __ __ __ __ __ __"#,
r#""#,
r#"type ripeCtx struct {"#,
r#"	hash     func(*ripeCtx)       //Hashing func for when block is full"#,
r#"	state    [10]uint32           //Runtime state of hash"#,
r#"	stateLen int                  //Part of the state used (variants based)"#,
r#"	len      uint64               //Number of bytes added to state (in total)"#,
r#"	block    [blockSizeBytes]byte //Temp processing block"#,
r#"	bPos     int                  //Position of data written to block"#,
r#"}"#,
r#""#,
r#"func (c *ripeCtx) getX() []uint32 {"#,
r#"	ret := make([]uint32, blockSizeU32)"#,
r#"	for i := 0; i < blockSizeU32; i++ {"#,
r#"		ret[i] = binary.LittleEndian.Uint32(c.block[i*u32Size:])"#,
r#"	}"#,
r#"	return ret"#,
r#"}"#,
r#""#,
r#"func (c *ripeCtx) Reset() {"#,
r#"	n := c.stateLen"#,
r#"	if n > 5 {"#,
r#"		//Deal with 256,320 loading iv2 into second half of space"#,
r#"		n /= 2"#,
r#"		for i := 0; i < n; i++ {"#,
r#"			c.state[i] = binary.BigEndian.Uint32([]byte(iv[i*u32Size:]))"#,
r#"			c.state[i+n] = binary.BigEndian.Uint32([]byte(iv2[i*u32Size:]))"#,
r#"		}"#,
r#"	} else {"#,
r#"		for i := 0; i < n; i++ {"#,
r#"			c.state[i] = binary.BigEndian.Uint32([]byte(iv[i*u32Size:]))"#,
r#"		}"#,
r#"	}"#,
r#"	c.len = 0"#,
r#"	c.bPos = 0"#,
r#"}"#,
r#""#,
r#"func (c *ripeCtx) Write(p []byte) (n int, err error) {"#,
r#"	n = len(p)"#,
r#"	c.len += uint64(n)"#,
r#""#,
r#"	nToWrite := n"#,
r#"	space := blockSizeBytes - c.bPos"#,
r#"	for nToWrite > 0 {"#,
r#"		if space > nToWrite {"#,
r#"			//If there's more space than data, copy the data in"#,
r#"			copy(c.block[c.bPos:], p)"#,
r#"			c.bPos += nToWrite"#,
r#"			//And we're done"#,
r#"			return"#,
r#"		}"#,
r#"		//Otherwise write to the end of the space"#,
r#"		copy(c.block[c.bPos:], p[0:space])"#,
r#"		c.bPos += space"#,
r#""#,
r#"		c.hash(c)     //Process the block"#,
r#"		p = p[space:] //Re-slice for the next section"#,
r#"		nToWrite -= space"#,
r#"		space = blockSizeBytes //Max space from now on"#,
r#"	}"#,
r#"	return"#,
r#"}"#,
r#""#,
r#"func (c *ripeCtx) Sum(in []byte) []byte {"#,
r#"	//Since sum isn't supposed to mutate the hash so far, make a copy"#,
r#"	t := *c"#,
r#"	h := &t"#,
r#""#,
r#"	//Because of the way write works, we must always have at least one"#,
r#"	// byte free (if there was zero, it would be hashed and there'd be 64)"#,
r#"	h.block[h.bPos] = 0x80"#,
r#"	h.bPos++"#,
r#"	//If we don't have enough space for the size, add zeros and hash"#,
r#"	if h.bPos > sizeSpace {"#,
r#"		bytes.Zero(h.block[h.bPos:])"#,
r#"		h.hash(h)"#,
r#"	}"#,
r#""#,
r#"	//Zero leaving space for the size"#,
r#"	bytes.Zero(h.block[h.bPos:sizeSpace])"#,
r#"	h.bPos = sizeSpace"#,
r#""#,
r#"	//Write the size.. in bits (it's stored in bytes *8 = <<3)"#,
r#"	h.block[h.bPos] = byte(h.len << 3)"#,
r#"	h.block[h.bPos+1] = byte(h.len >> 5)"#,
r#"	h.block[h.bPos+2] = byte(h.len >> 13)"#,
r#"	h.block[h.bPos+3] = byte(h.len >> 21)"#,
r#"	h.block[h.bPos+4] = byte(h.len >> 29)"#,
r#"	h.block[h.bPos+5] = byte(h.len >> 37)"#,
r#"	h.block[h.bPos+6] = byte(h.len >> 45)"#,
r#"	h.block[h.bPos+7] = byte(h.len >> 53)"#,
r#"	(*h).bPos += 8"#,
r#""#,
r#"	h.hash(h)"#,
r#"	//Append the state (which is the hash) to the input"#,
r#"	var out = make([]byte, h.stateLen*u32Size)"#,
r#"	for i := 0; i < h.stateLen; i++ {"#,
r#"		binary.LittleEndian.PutUint32(out[i*u32Size:],h.state[i])"#,
r#"	}"#,
r#"	return append(in, out...) //Shake it all about"#,
r#"}"#,
r#""#,
r#"func (c *ripeCtx) BlockSize() int { return blockSizeBytes }"#,
r#""#,
r#"func (c *ripeCtx) Size() int { return c.stateLen * u32Size }"#,
r#""#]

def f0 : Decl :=
  .func 0 false 0 (n! "f0") (.cons (n! "x") (.name (n! "uint32")) (.cons (n! "y") (.name (n! "uint32")) (.cons (n! "z") (.name (n! "uint32")) .nil))) (.cons 0 (.name (n! "uint32")) .nil) (.cons
    (.ret (.cons (.bin .xor (.bin .xor (.id (n! "x")) (.id (n! "y"))) (.id (n! "z"))) .nil)) .nil)

def f1 : Decl :=
  .func 0 false 0 (n! "f1") (.cons (n! "x") (.name (n! "uint32")) (.cons (n! "y") (.name (n! "uint32")) (.cons (n! "z") (.name (n! "uint32")) .nil))) (.cons 0 (.name (n! "uint32")) .nil) (.cons
    (.ret (.cons (.bin .xor (.id (n! "z")) (.bin .and (.id (n! "x")) (.bin .xor (.id (n! "y")) (.id (n! "z"))))) .nil)) .nil)

def f2 : Decl :=
  .func 0 false 0 (n! "f2") (.cons (n! "x") (.name (n! "uint32")) (.cons (n! "y") (.name (n! "uint32")) (.cons (n! "z") (.name (n! "uint32")) .nil))) (.cons 0 (.name (n! "uint32")) .nil) (.cons
    (.ret (.cons (.bin .xor (.bin .or (.id (n! "x")) (.un .com (.id (n! "y")))) (.id (n! "z"))) .nil)) .nil)

def f3 : Decl :=
  .func 0 false 0 (n! "f3") (.cons (n! "x") (.name (n! "uint32")) (.cons (n! "y") (.name (n! "uint32")) (.cons (n! "z") (.name (n! "uint32")) .nil))) (.cons 0 (.name (n! "uint32")) .nil) (.cons
    (.ret (.cons (.bin .xor (.id (n! "y")) (.bin .and (.id (n! "z")) (.bin .xor (.id (n! "x")) (.id (n! "y"))))) .nil)) .nil)

def f4 : Decl :=
  .func 0 false 0 (n! "f4") (.cons (n! "x") (.name (n! "uint32")) (.cons (n! "y") (.name (n! "uint32")) (.cons (n! "z") (.name (n! "uint32")) .nil))) (.cons 0 (.name (n! "uint32")) .nil) (.cons
    (.ret (.cons (.bin .xor (.id (n! "x")) (.bin .or (.id (n! "y")) (.un .com (.id (n! "z"))))) .nil)) .nil)

def ripeCtx_getX : Decl :=
  .func (n! "c") true (n! "ripeCtx") (n! "getX") .nil (.cons 0 (.slice (.name (n! "uint32"))) .nil) (.cons
    (.define [n! "ret"] (.cons (.call (.id (n! "make")) (.cons (.ty (.slice (.name (n! "uint32")))) (.cons (.id (n! "blockSizeU32")) .nil)) false) .nil)) (.cons
    (.for (.define [n! "i"] (.cons (.int 0) .nil)) (.bin .lt (.id (n! "i")) (.id (n! "blockSizeU32"))) (.opAssign .add (.id (n! "i")) (.int 1)) (.cons
      (.assign (.cons (.idx (.id (n! "ret")) (.id (n! "i"))) .nil) (.cons (.call (.sel (.sel (.id (n! "binary")) (n! "LittleEndian")) (n! "Uint32")) (.cons (.slc (.sel (.id (n! "c")) (n! "block")) (.bin .mul (.id (n! "i")) (.id (n! "u32Size"))) .none) .nil) false) .nil)) .nil)) (.cons
    (.ret (.cons (.id (n! "ret")) .nil)) .nil)))

def ripeCtx_Reset : Decl :=
  .func (n! "c") true (n! "ripeCtx") (n! "Reset") .nil .nil (.cons
    (.define [n! "n"] (.cons (.sel (.id (n! "c")) (n! "stateLen")) .nil)) (.cons
    (.ifs .skip (.bin .gt (.id (n! "n")) (.int 5)) (.cons
      (.opAssign .div (.id (n! "n")) (.int 2)) (.cons
      (.for (.define [n! "i"] (.cons (.int 0) .nil)) (.bin .lt (.id (n! "i")) (.id (n! "n"))) (.opAssign .add (.id (n! "i")) (.int 1)) (.cons
        (.assign (.cons (.idx (.sel (.id (n! "c")) (n! "state")) (.id (n! "i"))) .nil) (.cons (.call (.sel (.sel (.id (n! "binary")) (n! "BigEndian")) (n! "Uint32")) (.cons (.call (.ty (.slice (.name (n! "byte")))) (.cons (.slc (.id (n! "iv")) (.bin .mul (.id (n! "i")) (.id (n! "u32Size"))) .none) .nil) false) .nil) false) .nil)) (.cons
        (.assign (.cons (.idx (.sel (.id (n! "c")) (n! "state")) (.bin .add (.id (n! "i")) (.id (n! "n")))) .nil) (.cons (.call (.sel (.sel (.id (n! "binary")) (n! "BigEndian")) (n! "Uint32")) (.cons (.call (.ty (.slice (.name (n! "byte")))) (.cons (.slc (.id (n! "iv2")) (.bin .mul (.id (n! "i")) (.id (n! "u32Size"))) .none) .nil) false) .nil) false) .nil)) .nil))) .nil)) (.cons
      (.for (.define [n! "i"] (.cons (.int 0) .nil)) (.bin .lt (.id (n! "i")) (.id (n! "n"))) (.opAssign .add (.id (n! "i")) (.int 1)) (.cons
        (.assign (.cons (.idx (.sel (.id (n! "c")) (n! "state")) (.id (n! "i"))) .nil) (.cons (.call (.sel (.sel (.id (n! "binary")) (n! "BigEndian")) (n! "Uint32")) (.cons (.call (.ty (.slice (.name (n! "byte")))) (.cons (.slc (.id (n! "iv")) (.bin .mul (.id (n! "i")) (.id (n! "u32Size"))) .none) .nil) false) .nil) false) .nil)) .nil)) .nil)) (.cons
    (.assign (.cons (.sel (.id (n! "c")) (n! "len")) .nil) (.cons (.int 0) .nil)) (.cons
    (.assign (.cons (.sel (.id (n! "c")) (n! "bPos")) .nil) (.cons (.int 0) .nil)) .nil))))

def ripeCtx_Write : Decl :=
  .func (n! "c") true (n! "ripeCtx") (n! "Write") (.cons (n! "p") (.slice (.name (n! "byte"))) .nil) (.cons (n! "n") (.name (n! "int")) (.cons (n! "err") (.name (n! "error")) .nil)) (.cons
    (.assign (.cons (.id (n! "n")) .nil) (.cons (.call (.id (n! "len")) (.cons (.id (n! "p")) .nil) false) .nil)) (.cons
    (.opAssign .add (.sel (.id (n! "c")) (n! "len")) (.call (.id (n! "uint64")) (.cons (.id (n! "n")) .nil) false)) (.cons
    (.define [n! "nToWrite"] (.cons (.id (n! "n")) .nil)) (.cons
    (.define [n! "space"] (.cons (.bin .sub (.id (n! "blockSizeBytes")) (.sel (.id (n! "c")) (n! "bPos"))) .nil)) (.cons
    (.for .skip (.bin .gt (.id (n! "nToWrite")) (.int 0)) .skip (.cons
      (.ifs .skip (.bin .gt (.id (n! "space")) (.id (n! "nToWrite"))) (.cons
        (.expr (.call (.id (n! "copy")) (.cons (.slc (.sel (.id (n! "c")) (n! "block")) (.sel (.id (n! "c")) (n! "bPos")) .none) (.cons (.id (n! "p")) .nil)) false)) (.cons
        (.opAssign .add (.sel (.id (n! "c")) (n! "bPos")) (.id (n! "nToWrite"))) (.cons
        (.ret .nil) .nil))) .nil) (.cons
      (.expr (.call (.id (n! "copy")) (.cons (.slc (.sel (.id (n! "c")) (n! "block")) (.sel (.id (n! "c")) (n! "bPos")) .none) (.cons (.slc (.id (n! "p")) (.int 0) (.id (n! "space"))) .nil)) false)) (.cons
      (.opAssign .add (.sel (.id (n! "c")) (n! "bPos")) (.id (n! "space"))) (.cons
      (.expr (.call (.sel (.id (n! "c")) (n! "hash")) (.cons (.id (n! "c")) .nil) false)) (.cons
      (.assign (.cons (.id (n! "p")) .nil) (.cons (.slc (.id (n! "p")) (.id (n! "space")) .none) .nil)) (.cons
      (.opAssign .sub (.id (n! "nToWrite")) (.id (n! "space"))) (.cons
      (.assign (.cons (.id (n! "space")) .nil) (.cons (.id (n! "blockSizeBytes")) .nil)) .nil)))))))) (.cons
    (.ret .nil) .nil))))))

def ripeCtx_Sum : Decl :=
  .func (n! "c") true (n! "ripeCtx") (n! "Sum") (.cons (n! "in") (.slice (.name (n! "byte"))) .nil) (.cons 0 (.slice (.name (n! "byte"))) .nil) (.cons
    (.define [n! "t"] (.cons (.un .deref (.id (n! "c"))) .nil)) (.cons
    (.define [n! "h"] (.cons (.un .addr (.id (n! "t"))) .nil)) (.cons
    (.assign (.cons (.idx (.sel (.id (n! "h")) (n! "block")) (.sel (.id (n! "h")) (n! "bPos"))) .nil) (.cons (.int 128) .nil)) (.cons
    (.opAssign .add (.sel (.id (n! "h")) (n! "bPos")) (.int 1)) (.cons
    (.ifs .skip (.bin .gt (.sel (.id (n! "h")) (n! "bPos")) (.id (n! "sizeSpace"))) (.cons
      (.expr (.call (.sel (.id (n! "bytes")) (n! "Zero")) (.cons (.slc (.sel (.id (n! "h")) (n! "block")) (.sel (.id (n! "h")) (n! "bPos")) .none) .nil) false)) (.cons
      (.expr (.call (.sel (.id (n! "h")) (n! "hash")) (.cons (.id (n! "h")) .nil) false)) .nil)) .nil) (.cons
    (.expr (.call (.sel (.id (n! "bytes")) (n! "Zero")) (.cons (.slc (.sel (.id (n! "h")) (n! "block")) (.sel (.id (n! "h")) (n! "bPos")) (.id (n! "sizeSpace"))) .nil) false)) (.cons
    (.assign (.cons (.sel (.id (n! "h")) (n! "bPos")) .nil) (.cons (.id (n! "sizeSpace")) .nil)) (.cons
    (.assign (.cons (.idx (.sel (.id (n! "h")) (n! "block")) (.sel (.id (n! "h")) (n! "bPos"))) .nil) (.cons (.call (.id (n! "byte")) (.cons (.bin .shl (.sel (.id (n! "h")) (n! "len")) (.int 3)) .nil) false) .nil)) (.cons
    (.assign (.cons (.idx (.sel (.id (n! "h")) (n! "block")) (.bin .add (.sel (.id (n! "h")) (n! "bPos")) (.int 1))) .nil) (.cons (.call (.id (n! "byte")) (.cons (.bin .shr (.sel (.id (n! "h")) (n! "len")) (.int 5)) .nil) false) .nil)) (.cons
    (.assign (.cons (.idx (.sel (.id (n! "h")) (n! "block")) (.bin .add (.sel (.id (n! "h")) (n! "bPos")) (.int 2))) .nil) (.cons (.call (.id (n! "byte")) (.cons (.bin .shr (.sel (.id (n! "h")) (n! "len")) (.int 13)) .nil) false) .nil)) (.cons
    (.assign (.cons (.idx (.sel (.id (n! "h")) (n! "block")) (.bin .add (.sel (.id (n! "h")) (n! "bPos")) (.int 3))) .nil) (.cons (.call (.id (n! "byte")) (.cons (.bin .shr (.sel (.id (n! "h")) (n! "len")) (.int 21)) .nil) false) .nil)) (.cons
    (.assign (.cons (.idx (.sel (.id (n! "h")) (n! "block")) (.bin .add (.sel (.id (n! "h")) (n! "bPos")) (.int 4))) .nil) (.cons (.call (.id (n! "byte")) (.cons (.bin .shr (.sel (.id (n! "h")) (n! "len")) (.int 29)) .nil) false) .nil)) (.cons
    (.assign (.cons (.idx (.sel (.id (n! "h")) (n! "block")) (.bin .add (.sel (.id (n! "h")) (n! "bPos")) (.int 5))) .nil) (.cons (.call (.id (n! "byte")) (.cons (.bin .shr (.sel (.id (n! "h")) (n! "len")) (.int 37)) .nil) false) .nil)) (.cons
    (.assign (.cons (.idx (.sel (.id (n! "h")) (n! "block")) (.bin .add (.sel (.id (n! "h")) (n! "bPos")) (.int 6))) .nil) (.cons (.call (.id (n! "byte")) (.cons (.bin .shr (.sel (.id (n! "h")) (n! "len")) (.int 45)) .nil) false) .nil)) (.cons
    (.assign (.cons (.idx (.sel (.id (n! "h")) (n! "block")) (.bin .add (.sel (.id (n! "h")) (n! "bPos")) (.int 7))) .nil) (.cons (.call (.id (n! "byte")) (.cons (.bin .shr (.sel (.id (n! "h")) (n! "len")) (.int 53)) .nil) false) .nil)) (.cons
    (.opAssign .add (.sel (.un .deref (.id (n! "h"))) (n! "bPos")) (.int 8)) (.cons
    (.expr (.call (.sel (.id (n! "h")) (n! "hash")) (.cons (.id (n! "h")) .nil) false)) (.cons
    (.var [n! "out"] .none (.cons (.call (.id (n! "make")) (.cons (.ty (.slice (.name (n! "byte")))) (.cons (.bin .mul (.sel (.id (n! "h")) (n! "stateLen")) (.id (n! "u32Size"))) .nil)) false) .nil)) (.cons
    (.for (.define [n! "i"] (.cons (.int 0) .nil)) (.bin .lt (.id (n! "i")) (.sel (.id (n! "h")) (n! "stateLen"))) (.opAssign .add (.id (n! "i")) (.int 1)) (.cons
      (.expr (.call (.sel (.sel (.id (n! "binary")) (n! "LittleEndian")) (n! "PutUint32")) (.cons (.slc (.id (n! "out")) (.bin .mul (.id (n! "i")) (.id (n! "u32Size"))) .none) (.cons (.idx (.sel (.id (n! "h")) (n! "state")) (.id (n! "i"))) .nil)) false)) .nil)) (.cons
    (.ret (.cons (.call (.id (n! "append")) (.cons (.id (n! "in")) (.cons (.id (n! "out")) .nil)) true) .nil)) .nil))))))))))))))))))))

def ripeCtx_BlockSize : Decl :=
  .func (n! "c") true (n! "ripeCtx") (n! "BlockSize") .nil (.cons 0 (.name (n! "int")) .nil) (.cons
    (.ret (.cons (.id (n! "blockSizeBytes")) .nil)) .nil)

def ripeCtx_Size : Decl :=
  .func (n! "c") true (n! "ripeCtx") (n! "Size") .nil (.cons 0 (.name (n! "int")) .nil) (.cons
    (.ret (.cons (.bin .mul (.sel (.id (n! "c")) (n! "stateLen")) (.id (n! "u32Size"))) .nil)) .nil)

/-- The syntax tree. -/
def file : File := ⟨n! "ripemd", [[101, 110, 99, 111, 100, 105, 110, 103, 47, 98, 105, 110, 97, 114, 121], [103, 105, 116, 104, 117, 98, 46, 99, 111, 109, 47, 103, 110, 97, 98, 103, 105, 98, 47, 103, 110, 97, 98, 108, 105, 98, 45, 103, 111, 47, 98, 121, 116, 101, 115]], [
  f0,
  f1,
  f2,
  f3,
  f4,
  (.const (n! "r") (.bin .add (.bin .add (.bin .add (.bin .add (.bin .add (.str []) (.str [0, 1, 2, 3, 4, 5, 6, 7, 8, 9, 10, 11, 12, 13, 14, 15])) (.str [7, 4, 13, 1, 10, 6, 15, 3, 12, 0, 9, 5, 2, 14, 11, 8])) (.str [3, 10, 14, 4, 9, 15, 8, 1, 2, 7, 0, 6, 13, 11, 5, 12])) (.str [1, 9, 11, 10, 0, 8, 12, 4, 13, 3, 7, 15, 14, 5, 6, 2])) (.str [4, 0, 5, 9, 7, 12, 2, 10, 14, 1, 3, 8, 11, 6, 15, 13]))),
  (.const (n! "rr") (.bin .add (.bin .add (.bin .add (.bin .add (.bin .add (.str []) (.str [5, 14, 7, 0, 9, 2, 11, 4, 13, 6, 15, 8, 1, 10, 3, 12])) (.str [6, 11, 3, 7, 0, 13, 5, 10, 14, 15, 8, 12, 4, 9, 1, 2])) (.str [15, 5, 1, 3, 7, 14, 6, 9, 11, 8, 12, 2, 10, 0, 4, 13])) (.str [8, 6, 4, 1, 3, 11, 15, 0, 5, 12, 2, 13, 9, 7, 10, 14])) (.str [12, 15, 10, 4, 1, 5, 8, 7, 6, 2, 13, 14, 0, 3, 9, 11]))),
  (.const (n! "s") (.bin .add (.bin .add (.bin .add (.bin .add (.bin .add (.str []) (.str [11, 14, 15, 12, 5, 8, 7, 9, 11, 13, 14, 15, 6, 7, 9, 8])) (.str [7, 6, 8, 13, 11, 9, 7, 15, 7, 12, 15, 9, 11, 7, 13, 12])) (.str [11, 13, 6, 7, 14, 9, 13, 15, 14, 8, 13, 6, 5, 12, 7, 5])) (.str [11, 12, 14, 15, 14, 15, 9, 8, 9, 14, 5, 6, 8, 6, 5, 12])) (.str [9, 15, 5, 11, 6, 8, 13, 12, 5, 12, 13, 14, 11, 8, 5, 6]))),
  (.const (n! "ss") (.bin .add (.bin .add (.bin .add (.bin .add (.bin .add (.str []) (.str [8, 9, 9, 11, 13, 15, 15, 5, 7, 7, 8, 11, 14, 14, 12, 6])) (.str [9, 13, 15, 7, 12, 8, 9, 11, 7, 7, 12, 7, 6, 15, 13, 11])) (.str [9, 7, 15, 11, 8, 6, 6, 14, 12, 13, 5, 14, 13, 13, 7, 5])) (.str [15, 5, 8, 11, 14, 14, 6, 14, 6, 9, 12, 9, 12, 5, 15, 8])) (.str [8, 5, 12, 9, 12, 5, 14, 6, 8, 13, 6, 5, 15, 13, 11, 11]))),
  (.const (n! "k") (.bin .add (.bin .add (.bin .add (.bin .add (.str [0, 0, 0, 0]) (.str [90, 130, 121, 153])) (.str [110, 217, 235, 161])) (.str [143, 27, 188, 220])) (.str [169, 83, 253, 78]))),
  (.const (n! "kk") (.bin .add (.bin .add (.bin .add (.bin .add (.str [80, 162, 139, 230]) (.str [92, 77, 209, 36])) (.str [109, 112, 62, 243])) (.str [122, 109, 118, 233])) (.str [0, 0, 0, 0]))),
  (.const (n! "kk128") (.bin .add (.bin .add (.bin .add (.str [80, 162, 139, 230]) (.str [92, 77, 209, 36])) (.str [109, 112, 62, 243])) (.str [0, 0, 0, 0]))),
  (.const (n! "iv") (.bin .add (.bin .add (.bin .add (.bin .add (.str [103, 69, 35, 1]) (.str [239, 205, 171, 137])) (.str [152, 186, 220, 254])) (.str [16, 50, 84, 118])) (.str [195, 210, 225, 240]))),
  (.const (n! "iv2") (.bin .add (.bin .add (.bin .add (.bin .add (.str [118, 84, 50, 16]) (.str [254, 220, 186, 152])) (.str [137, 171, 205, 239])) (.str [1, 35, 69, 103])) (.str [60, 45, 30, 15]))),
  (.const (n! "u32Size") (.int 4)),
  (.const (n! "blockSizeBytes") (.int 64)),
  (.const (n! "blockSizeU32") (.bin .div (.id (n! "blockSizeBytes")) (.id (n! "u32Size")))),
  (.const (n! "sizeSpace") (.bin .sub (.id (n! "blockSizeBytes")) (.bin .mul (.int 2) (.id (n! "u32Size"))))),
  (.var (n! "f") .none (.comp (.dots (.func (.cons (n! "x") (.name (n! "uint32")) (.cons (n! "y") (.name (n! "uint32")) (.cons (n! "z") (.name (n! "uint32")) .nil))) (.cons 0 (.name (n! "uint32")) .nil))) (.cons 0 (.id (n! "f0")) (.cons 0 (.id (n! "f1")) (.cons 0 (.id (n! "f2")) (.cons 0 (.id (n! "f3")) (.cons 0 (.id (n! "f4")) .nil))))))),
  (.type (n! "ripeCtx") (.struct (.cons (n! "hash") (.func (.cons 0 (.ptr (.name (n! "ripeCtx"))) .nil) .nil) (.cons (n! "state") (.array (.int 10) (.name (n! "uint32"))) (.cons (n! "stateLen") (.name (n! "int")) (.cons (n! "len") (.name (n! "uint64")) (.cons (n! "block") (.array (.id (n! "blockSizeBytes")) (.name (n! "byte"))) (.cons (n! "bPos") (.name (n! "int")) .nil)))))))),
  ripeCtx_getX,
  ripeCtx_Reset,
  ripeCtx_Write,
  ripeCtx_Sum,
  ripeCtx_BlockSize,
  ripeCtx_Size]⟩

/-- The parser finds this tree in the text. -/
theorem parsed : parse src = some file := by kernel_rfl

end Source.RipeShared
