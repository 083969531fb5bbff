import Verif.Lang.Parser

/-!
# Source of hash/ripemd/ripe256.go

The text of the file, line by line without line ends, and its syntax tree as found by the parser. Generated by `tools/source.py`.
-/
namespace Source.Ripe256
open GoLang

/-- The text. -/
def src : List String := [
r#"// Copyright 2022 gnabgib"#,
r#"// This Source Code Form is subject to the terms of the Mozilla Public License v2.0"#,
r#""#,
r#"package ripemd"#,
r#""#,
r#"import ("#,
r#"	"encoding/binary""#,
r#"	"hash""#,
r#"	"math/bits""#,
r#")"#,
r#""#,
r#"const hashSize256u32 = 8"#,
r#""#,
r#"func hash256(ctx *ripeCtx) {"#,
r#"	a := ctx.state[0]"#,
r#"	b := ctx.state[1]"#,
r#"	c := ctx.state[2]"#,
r#"	d := ctx.state[3]"#,
r#"	aa := ctx.state[4]"#,
r#"	bb := ctx.state[5]"#,
r#"	cc := ctx.state[6]"#,
r#"	dd := ctx.state[7]"#,
r#""#,
r#"	x := ctx.getX()"#,
r#""#,
r#"	j := 0"#,
r#"	round := 0"#,
r#"	tk := binary.BigEndian.Uint32([]byte(k[round*4 : round*4+4]))"#,
r#"	tkk := binary.BigEndian.Uint32([]byte(kk128[round*4 : round*4+4]))"#,
r#"	var t uint32"#,
r#""#,
r#"	for ; j < 16; j++ {"#,
r#"		t = bits.RotateLeft32(a+f[round](b, c, d)+x[r[j]]+tk, int(s[j]))"#,
r#"		a, d, c, b = d, c, b, t"#,
r#"		t = bits.RotateLeft32(aa+f[3-round](bb, cc, dd)+x[rr[j]]+tkk, int(ss[j]))"#,
r#"		aa, dd, cc, bb = dd, cc, bb, t"#,
r#"	}"#,
r#"	a, aa = aa, a"#,
r#""#,
r#"	round = 1"#,
r#"	tk = binary.BigEndian.Uint32([]byte(k[round*4 : round*4+4]))"#,
r#"	tkk = binary.BigEndian.Uint32([]byte(kk128[round*4 : round*4+4]))"#,
r#"	for ; j < 32; j++ {"#,
r#"		t = bits.RotateLeft32(a+f[round](b, c, d)+x[r[j]]+tk, int(s[j]))"#,
r#"		a, d, c, b = d, c, b, t"#,
r#"		t = bits.RotateLeft32(aa+f[3-round](bb, cc, dd)+x[rr[j]]+tkk, int(ss[j]))"#,
r#"		aa, dd, cc, bb = dd, cc, bb, t"#,
r#"	}"#,
r#"	b, bb = bb, b"#,
r#""#,
r#"	round = 2"#,
r#"	tk = binary.BigEndian.Uint32([]byte(k[round*4 : round*4+4]))"#,
r#"	tkk = binary.BigEndian.Uint32([]byte(kk128[round*4 : round*4+4]))"#,
r#"	for ; j < 48; j++ {"#,
r#"		t = bits.RotateLeft32(a+f[round](b, c, d)+x[r[j]]+tk, int(s[j]))"#,
r#"		a, d, c, b = d, c, b, t"#,
r#"		t = bits.RotateLeft32(aa+f[3-round](bb, cc, dd)+x[rr[j]]+tkk, int(ss[j]))"#,
r#"		aa, dd, cc, bb = dd, cc, bb, t"#,
r#"	}"#,
r#"	c, cc = cc, c"#,
r#""#,
r#"	round = 3"#,
r#"	tk = binary.BigEndian.Uint32([]byte(k[round*4 : round*4+4]))"#,
r#"	tkk = binary.BigEndian.Uint32([]byte(kk128[round*4 : round*4+4]))"#,
r#"	for ; j < 64; j++ {"#,
r#"		t = bits.RotateLeft32(a+f[round](b, c, d)+x[r[j]]+tk, int(s[j]))"#,
r#"		a, d, c, b = d, c, b, t"#,
r#"		t = bits.RotateLeft32(aa+f[3-round](bb, cc, dd)+x[rr[j]]+tkk, int(ss[j]))"#,
r#"		aa, dd, cc, bb = dd, cc, bb, t"#,
r#"	}"#,
r#"	d, dd = dd, d"#,
r#""#,
r#"	ctx.state[0] += a"#,
r#"	ctx.state[1] += b"#,
r#"	ctx.state[2] += c"#,
r#"	ctx.state[3] += d"#,
r#"	ctx.state[4] += aa"#,
r#"	ctx.state[5] += bb"#,
r#"	ctx.state[6] += cc"#,
r#"	ctx.state[7] += dd"#,
r#"	ctx.bPos = 0"#,
r#"}"#,
r#""#,
r#"// A new hash for computing RipeMd160"#,
r#"func New256() hash.Hash {"#,
r#"	c := &ripeCtx{"#,
r#"		hash:     hash256,"#,
r#"		stateLen: hashSize256u32}"#,
r#"	c.Reset()"#,
r#"	return c"#,
r#"}"#,
r#""#]

def hash256 : Decl :=
  .func 0 false 0 (n! "hash256") (.cons (n! "ctx") (.ptr (.name (n! "ripeCtx"))) .nil) .nil (.cons
    (.define [n! "a"] (.cons (.idx (.sel (.id (n! "ctx")) (n! "state")) (.int 0)) .nil)) (.cons
    (.define [n! "b"] (.cons (.idx (.sel (.id (n! "ctx")) (n! "state")) (.int 1)) .nil)) (.cons
    (.define [n! "c"] (.cons (.idx (.sel (.id (n! "ctx")) (n! "state")) (.int 2)) .nil)) (.cons
    (.define [n! "d"] (.cons (.idx (.sel (.id (n! "ctx")) (n! "state")) (.int 3)) .nil)) (.cons
    (.define [n! "aa"] (.cons (.idx (.sel (.id (n! "ctx")) (n! "state")) (.int 4)) .nil)) (.cons
    (.define [n! "bb"] (.cons (.idx (.sel (.id (n! "ctx")) (n! "state")) (.int 5)) .nil)) (.cons
    (.define [n! "cc"] (.cons (.idx (.sel (.id (n! "ctx")) (n! "state")) (.int 6)) .nil)) (.cons
    (.define [n! "dd"] (.cons (.idx (.sel (.id (n! "ctx")) (n! "state")) (.int 7)) .nil)) (.cons
    (.define [n! "x"] (.cons (.call (.sel (.id (n! "ctx")) (n! "getX")) .nil false) .nil)) (.cons
    (.define [n! "j"] (.cons (.int 0) .nil)) (.cons
    (.define [n! "round"] (.cons (.int 0) .nil)) (.cons
    (.define [n! "tk"] (.cons (.call (.sel (.sel (.id (n! "binary")) (n! "BigEndian")) (n! "Uint32")) (.cons (.call (.ty (.slice (.name (n! "byte")))) (.cons (.slc (.id (n! "k")) (.bin .mul (.id (n! "round")) (.int 4)) (.bin .add (.bin .mul (.id (n! "round")) (.int 4)) (.int 4))) .nil) false) .nil) false) .nil)) (.cons
    (.define [n! "tkk"] (.cons (.call (.sel (.sel (.id (n! "binary")) (n! "BigEndian")) (n! "Uint32")) (.cons (.call (.ty (.slice (.name (n! "byte")))) (.cons (.slc (.id (n! "kk128")) (.bin .mul (.id (n! "round")) (.int 4)) (.bin .add (.bin .mul (.id (n! "round")) (.int 4)) (.int 4))) .nil) false) .nil) false) .nil)) (.cons
    (.var [n! "t"] (.name (n! "uint32")) .nil) (.cons
    (.for .skip (.bin .lt (.id (n! "j")) (.int 16)) (.opAssign .add (.id (n! "j")) (.int 1)) (.cons
      (.assign (.cons (.id (n! "t")) .nil) (.cons (.call (.sel (.id (n! "bits")) (n! "RotateLeft32")) (.cons (.bin .add (.bin .add (.bin .add (.id (n! "a")) (.call (.idx (.id (n! "f")) (.id (n! "round"))) (.cons (.id (n! "b")) (.cons (.id (n! "c")) (.cons (.id (n! "d")) .nil))) false)) (.idx (.id (n! "x")) (.idx (.id (n! "r")) (.id (n! "j"))))) (.id (n! "tk"))) (.cons (.call (.id (n! "int")) (.cons (.idx (.id (n! "s")) (.id (n! "j"))) .nil) false) .nil)) false) .nil)) (.cons
      (.assign (.cons (.id (n! "a")) (.cons (.id (n! "d")) (.cons (.id (n! "c")) (.cons (.id (n! "b")) .nil)))) (.cons (.id (n! "d")) (.cons (.id (n! "c")) (.cons (.id (n! "b")) (.cons (.id (n! "t")) .nil))))) (.cons
      (.assign (.cons (.id (n! "t")) .nil) (.cons (.call (.sel (.id (n! "bits")) (n! "RotateLeft32")) (.cons (.bin .add (.bin .add (.bin .add (.id (n! "aa")) (.call (.idx (.id (n! "f")) (.bin .sub (.int 3) (.id (n! "round")))) (.cons (.id (n! "bb")) (.cons (.id (n! "cc")) (.cons (.id (n! "dd")) .nil))) false)) (.idx (.id (n! "x")) (.idx (.id (n! "rr")) (.id (n! "j"))))) (.id (n! "tkk"))) (.cons (.call (.id (n! "int")) (.cons (.idx (.id (n! "ss")) (.id (n! "j"))) .nil) false) .nil)) false) .nil)) (.cons
      (.assign (.cons (.id (n! "aa")) (.cons (.id (n! "dd")) (.cons (.id (n! "cc")) (.cons (.id (n! "bb")) .nil)))) (.cons (.id (n! "dd")) (.cons (.id (n! "cc")) (.cons (.id (n! "bb")) (.cons (.id (n! "t")) .nil))))) .nil))))) (.cons
    (.assign (.cons (.id (n! "a")) (.cons (.id (n! "aa")) .nil)) (.cons (.id (n! "aa")) (.cons (.id (n! "a")) .nil))) (.cons
    (.assign (.cons (.id (n! "round")) .nil) (.cons (.int 1) .nil)) (.cons
    (.assign (.cons (.id (n! "tk")) .nil) (.cons (.call (.sel (.sel (.id (n! "binary")) (n! "BigEndian")) (n! "Uint32")) (.cons (.call (.ty (.slice (.name (n! "byte")))) (.cons (.slc (.id (n! "k")) (.bin .mul (.id (n! "round")) (.int 4)) (.bin .add (.bin .mul (.id (n! "round")) (.int 4)) (.int 4))) .nil) false) .nil) false) .nil)) (.cons
    (.assign (.cons (.id (n! "tkk")) .nil) (.cons (.call (.sel (.sel (.id (n! "binary")) (n! "BigEndian")) (n! "Uint32")) (.cons (.call (.ty (.slice (.name (n! "byte")))) (.cons (.slc (.id (n! "kk128")) (.bin .mul (.id (n! "round")) (.int 4)) (.bin .add (.bin .mul (.id (n! "round")) (.int 4)) (.int 4))) .nil) false) .nil) false) .nil)) (.cons
    (.for .skip (.bin .lt (.id (n! "j")) (.int 32)) (.opAssign .add (.id (n! "j")) (.int 1)) (.cons
      (.assign (.cons (.id (n! "t")) .nil) (.cons (.call (.sel (.id (n! "bits")) (n! "RotateLeft32")) (.cons (.bin .add (.bin .add (.bin .add (.id (n! "a")) (.call (.idx (.id (n! "f")) (.id (n! "round"))) (.cons (.id (n! "b")) (.cons (.id (n! "c")) (.cons (.id (n! "d")) .nil))) false)) (.idx (.id (n! "x")) (.idx (.id (n! "r")) (.id (n! "j"))))) (.id (n! "tk"))) (.cons (.call (.id (n! "int")) (.cons (.idx (.id (n! "s")) (.id (n! "j"))) .nil) false) .nil)) false) .nil)) (.cons
      (.assign (.cons (.id (n! "a")) (.cons (.id (n! "d")) (.cons (.id (n! "c")) (.cons (.id (n! "b")) .nil)))) (.cons (.id (n! "d")) (.cons (.id (n! "c")) (.cons (.id (n! "b")) (.cons (.id (n! "t")) .nil))))) (.cons
      (.assign (.cons (.id (n! "t")) .nil) (.cons (.call (.sel (.id (n! "bits")) (n! "RotateLeft32")) (.cons (.bin .add (.bin .add (.bin .add (.id (n! "aa")) (.call (.idx (.id (n! "f")) (.bin .sub (.int 3) (.id (n! "round")))) (.cons (.id (n! "bb")) (.cons (.id (n! "cc")) (.cons (.id (n! "dd")) .nil))) false)) (.idx (.id (n! "x")) (.idx (.id (n! "rr")) (.id (n! "j"))))) (.id (n! "tkk"))) (.cons (.call (.id (n! "int")) (.cons (.idx (.id (n! "ss")) (.id (n! "j"))) .nil) false) .nil)) false) .nil)) (.cons
      (.assign (.cons (.id (n! "aa")) (.cons (.id (n! "dd")) (.cons (.id (n! "cc")) (.cons (.id (n! "bb")) .nil)))) (.cons (.id (n! "dd")) (.cons (.id (n! "cc")) (.cons (.id (n! "bb")) (.cons (.id (n! "t")) .nil))))) .nil))))) (.cons
    (.assign (.cons (.id (n! "b")) (.cons (.id (n! "bb")) .nil)) (.cons (.id (n! "bb")) (.cons (.id (n! "b")) .nil))) (.cons
    (.assign (.cons (.id (n! "round")) .nil) (.cons (.int 2) .nil)) (.cons
    (.assign (.cons (.id (n! "tk")) .nil) (.cons (.call (.sel (.sel (.id (n! "binary")) (n! "BigEndian")) (n! "Uint32")) (.cons (.call (.ty (.slice (.name (n! "byte")))) (.cons (.slc (.id (n! "k")) (.bin .mul (.id (n! "round")) (.int 4)) (.bin .add (.bin .mul (.id (n! "round")) (.int 4)) (.int 4))) .nil) false) .nil) false) .nil)) (.cons
    (.assign (.cons (.id (n! "tkk")) .nil) (.cons (.call (.sel (.sel (.id (n! "binary")) (n! "BigEndian")) (n! "Uint32")) (.cons (.call (.ty (.slice (.name (n! "byte")))) (.cons (.slc (.id (n! "kk128")) (.bin .mul (.id (n! "round")) (.int 4)) (.bin .add (.bin .mul (.id (n! "round")) (.int 4)) (.int 4))) .nil) false) .nil) false) .nil)) (.cons
    (.for .skip (.bin .lt (.id (n! "j")) (.int 48)) (.opAssign .add (.id (n! "j")) (.int 1)) (.cons
      (.assign (.cons (.id (n! "t")) .nil) (.cons (.call (.sel (.id (n! "bits")) (n! "RotateLeft32")) (.cons (.bin .add (.bin .add (.bin .add (.id (n! "a")) (.call (.idx (.id (n! "f")) (.id (n! "round"))) (.cons (.id (n! "b")) (.cons (.id (n! "c")) (.cons (.id (n! "d")) .nil))) false)) (.idx (.id (n! "x")) (.idx (.id (n! "r")) (.id (n! "j"))))) (.id (n! "tk"))) (.cons (.call (.id (n! "int")) (.cons (.idx (.id (n! "s")) (.id (n! "j"))) .nil) false) .nil)) false) .nil)) (.cons
      (.assign (.cons (.id (n! "a")) (.cons (.id (n! "d")) (.cons (.id (n! "c")) (.cons (.id (n! "b")) .nil)))) (.cons (.id (n! "d")) (.cons (.id (n! "c")) (.cons (.id (n! "b")) (.cons (.id (n! "t")) .nil))))) (.cons
      (.assign (.cons (.id (n! "t")) .nil) (.cons (.call (.sel (.id (n! "bits")) (n! "RotateLeft32")) (.cons (.bin .add (.bin .add (.bin .add (.id (n! "aa")) (.call (.idx (.id (n! "f")) (.bin .sub (.int 3) (.id (n! "round")))) (.cons (.id (n! "bb")) (.cons (.id (n! "cc")) (.cons (.id (n! "dd")) .nil))) false)) (.idx (.id (n! "x")) (.idx (.id (n! "rr")) (.id (n! "j"))))) (.id (n! "tkk"))) (.cons (.call (.id (n! "int")) (.cons (.idx (.id (n! "ss")) (.id (n! "j"))) .nil) false) .nil)) false) .nil)) (.cons
      (.assign (.cons (.id (n! "aa")) (.cons (.id (n! "dd")) (.cons (.id (n! "cc")) (.cons (.id (n! "bb")) .nil)))) (.cons (.id (n! "dd")) (.cons (.id (n! "cc")) (.cons (.id (n! "bb")) (.cons (.id (n! "t")) .nil))))) .nil))))) (.cons
    (.assign (.cons (.id (n! "c")) (.cons (.id (n! "cc")) .nil)) (.cons (.id (n! "cc")) (.cons (.id (n! "c")) .nil))) (.cons
    (.assign (.cons (.id (n! "round")) .nil) (.cons (.int 3) .nil)) (.cons
    (.assign (.cons (.id (n! "tk")) .nil) (.cons (.call (.sel (.sel (.id (n! "binary")) (n! "BigEndian")) (n! "Uint32")) (.cons (.call (.ty (.slice (.name (n! "byte")))) (.cons (.slc (.id (n! "k")) (.bin .mul (.id (n! "round")) (.int 4)) (.bin .add (.bin .mul (.id (n! "round")) (.int 4)) (.int 4))) .nil) false) .nil) false) .nil)) (.cons
    (.assign (.cons (.id (n! "tkk")) .nil) (.cons (.call (.sel (.sel (.id (n! "binary")) (n! "BigEndian")) (n! "Uint32")) (.cons (.call (.ty (.slice (.name (n! "byte")))) (.cons (.slc (.id (n! "kk128")) (.bin .mul (.id (n! "round")) (.int 4)) (.bin .add (.bin .mul (.id (n! "round")) (.int 4)) (.int 4))) .nil) false) .nil) false) .nil)) (.cons
    (.for .skip (.bin .lt (.id (n! "j")) (.int 64)) (.opAssign .add (.id (n! "j")) (.int 1)) (.cons
      (.assign (.cons (.id (n! "t")) .nil) (.cons (.call (.sel (.id (n! "bits")) (n! "RotateLeft32")) (.cons (.bin .add (.bin .add (.bin .add (.id (n! "a")) (.call (.idx (.id (n! "f")) (.id (n! "round"))) (.cons (.id (n! "b")) (.cons (.id (n! "c")) (.cons (.id (n! "d")) .nil))) false)) (.idx (.id (n! "x")) (.idx (.id (n! "r")) (.id (n! "j"))))) (.id (n! "tk"))) (.cons (.call (.id (n! "int")) (.cons (.idx (.id (n! "s")) (.id (n! "j"))) .nil) false) .nil)) false) .nil)) (.cons
      (.assign (.cons (.id (n! "a")) (.cons (.id (n! "d")) (.cons (.id (n! "c")) (.cons (.id (n! "b")) .nil)))) (.cons (.id (n! "d")) (.cons (.id (n! "c")) (.cons (.id (n! "b")) (.cons (.id (n! "t")) .nil))))) (.cons
      (.assign (.cons (.id (n! "t")) .nil) (.cons (.call (.sel (.id (n! "bits")) (n! "RotateLeft32")) (.cons (.bin .add (.bin .add (.bin .add (.id (n! "aa")) (.call (.idx (.id (n! "f")) (.bin .sub (.int 3) (.id (n! "round")))) (.cons (.id (n! "bb")) (.cons (.id (n! "cc")) (.cons (.id (n! "dd")) .nil))) false)) (.idx (.id (n! "x")) (.idx (.id (n! "rr")) (.id (n! "j"))))) (.id (n! "tkk"))) (.cons (.call (.id (n! "int")) (.cons (.idx (.id (n! "ss")) (.id (n! "j"))) .nil) false) .nil)) false) .nil)) (.cons
      (.assign (.cons (.id (n! "aa")) (.cons (.id (n! "dd")) (.cons (.id (n! "cc")) (.cons (.id (n! "bb")) .nil)))) (.cons (.id (n! "dd")) (.cons (.id (n! "cc")) (.cons (.id (n! "bb")) (.cons (.id (n! "t")) .nil))))) .nil))))) (.cons
    (.assign (.cons (.id (n! "d")) (.cons (.id (n! "dd")) .nil)) (.cons (.id (n! "dd")) (.cons (.id (n! "d")) .nil))) (.cons
    (.opAssign .add (.idx (.sel (.id (n! "ctx")) (n! "state")) (.int 0)) (.id (n! "a"))) (.cons
    (.opAssign .add (.idx (.sel (.id (n! "ctx")) (n! "state")) (.int 1)) (.id (n! "b"))) (.cons
    (.opAssign .add (.idx (.sel (.id (n! "ctx")) (n! "state")) (.int 2)) (.id (n! "c"))) (.cons
    (.opAssign .add (.idx (.sel (.id (n! "ctx")) (n! "state")) (.int 3)) (.id (n! "d"))) (.cons
    (.opAssign .add (.idx (.sel (.id (n! "ctx")) (n! "state")) (.int 4)) (.id (n! "aa"))) (.cons
    (.opAssign .add (.idx (.sel (.id (n! "ctx")) (n! "state")) (.int 5)) (.id (n! "bb"))) (.cons
    (.opAssign .add (.idx (.sel (.id (n! "ctx")) (n! "state")) (.int 6)) (.id (n! "cc"))) (.cons
    (.opAssign .add (.idx (.sel (.id (n! "ctx")) (n! "state")) (.int 7)) (.id (n! "dd"))) (.cons
    (.assign (.cons (.sel (.id (n! "ctx")) (n! "bPos")) .nil) (.cons (.int 0) .nil)) .nil))))))))))))))))))))))))))))))))))))))))

def New256 : Decl :=
  .func 0 false 0 (n! "New256") .nil (.cons 0 (.qual (n! "hash") (n! "Hash")) .nil) (.cons
    (.define [n! "c"] (.cons (.un .addr (.comp (.name (n! "ripeCtx")) (.cons (n! "hash") (.id (n! "hash256")) (.cons (n! "stateLen") (.id (n! "hashSize256u32")) .nil)))) .nil)) (.cons
    (.expr (.call (.sel (.id (n! "c")) (n! "Reset")) .nil false)) (.cons
    (.ret (.cons (.id (n! "c")) .nil)) .nil)))

/-- The syntax tree. -/
def file : File := ⟨n! "ripemd", [[101, 110, 99, 111, 100, 105, 110, 103, 47, 98, 105, 110, 97, 114, 121], [104, 97, 115, 104], [109, 97, 116, 104, 47, 98, 105, 116, 115]], [
  (.const (n! "hashSize256u32") (.int 8)),
  hash256,
  New256]⟩

/-- The parser finds this tree in the text. -/
theorem parsed : parse src = some file := by kernel_rfl

end Source.Ripe256
