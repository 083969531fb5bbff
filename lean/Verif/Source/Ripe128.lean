import Verif.Lang.Parser

/-!
# Source of hash/ripemd/ripe128.go

The text of the file, line by line without line ends, and its syntax tree as found by the parser. Generated by `tools/source.py`.
-/
namespace Source.Ripe128
open GoLang

/-- The text. -/
def src : List String := [
r#"// Copyright 2022 gnabgib"#,
r#"// This Source Code Form is subject to the terms of the Mozilla Public License v2.0"#,
r#""#,
r#"package ripemd"#,
r#""#,
r#"import ("#,
r#"	"encoding/binary""#,
r#"	"hash""#,
r#"	"math/bits""#,
r#")"#,
r#""#,
r#"const ("#,
r#"	roundCount128  = 4"#,
r#"	hashSize128u32 = 4"#,
r#")"#,
r#""#,
r#"func hash128(ctx *ripeCtx) {"#,
r#"	a := ctx.state[0]"#,
r#"	b := ctx.state[1]"#,
r#"	c := ctx.state[2]"#,
r#"	d := ctx.state[3]"#,
r#"	aa := ctx.state[0]"#,
r#"	bb := ctx.state[1]"#,
r#"	cc := ctx.state[2]"#,
r#"	dd := ctx.state[3]"#,
r#""#,
r#"	x := ctx.getX()"#,
r#""#,
r#"	for round := 0; round < roundCount128; round++ {"#,
r#"		tk := binary.BigEndian.Uint32([]byte(k[round*4 : round*4+4]))"#,
r#"		tkk := binary.BigEndian.Uint32([]byte(kk128[round*4 : round*4+4]))"#,
r#"		n := (round + 1) * 16"#,
r#"		for j := round * 16; j < n; j++ {"#,
r#"			t := bits.RotateLeft32(a+f[round](b, c, d)+x[r[j]]+tk, int(s[j]))"#,
r#"			a, d, c, b = d, c, b, t"#,
r#"			t = bits.RotateLeft32(aa+f[3-round](bb, cc, dd)+x[rr[j]]+tkk, int(ss[j]))"#,
r#"			aa, dd, cc, bb = dd, cc, bb, t"#,
r#"		}"#,
r#"	}"#,
r#"	t := ctx.state[1] + c + dd"#,
r#"	ctx.state[1] = ctx.state[2] + d + aa"#,
r#"	ctx.state[2] = ctx.state[3] + a + bb"#,
r#"	ctx.state[3] = ctx.state[0] + b + cc"#,
r#"	ctx.state[0] = t"#,
r#"	ctx.bPos = 0"#,
r#"}"#,
r#""#,
r#"// A new hash for computing RipeMd160"#,
r#"func New128() hash.Hash {"#,
r#"	c := &ripeCtx{"#,
r#"		hash:     hash128,"#,
r#"		stateLen: hashSize128u32}"#,
r#"	c.Reset()"#,
r#"	return c"#,
r#"}"#,
r#""#]

def hash128 : Decl :=
  .func 0 false 0 (n! "hash128") (.cons (n! "ctx") (.ptr (.name (n! "ripeCtx"))) .nil) .nil (.cons
    (.define [n! "a"] (.cons (.idx (.sel (.id (n! "ctx")) (n! "state")) (.int 0)) .nil)) (.cons
    (.define [n! "b"] (.cons (.idx (.sel (.id (n! "ctx")) (n! "state")) (.int 1)) .nil)) (.cons
    (.define [n! "c"] (.cons (.idx (.sel (.id (n! "ctx")) (n! "state")) (.int 2)) .nil)) (.cons
    (.define [n! "d"] (.cons (.idx (.sel (.id (n! "ctx")) (n! "state")) (.int 3)) .nil)) (.cons
    (.define [n! "aa"] (.cons (.idx (.sel (.id (n! "ctx")) (n! "state")) (.int 0)) .nil)) (.cons
    (.define [n! "bb"] (.cons (.idx (.sel (.id (n! "ctx")) (n! "state")) (.int 1)) .nil)) (.cons
    (.define [n! "cc"] (.cons (.idx (.sel (.id (n! "ctx")) (n! "state")) (.int 2)) .nil)) (.cons
    (.define [n! "dd"] (.cons (.idx (.sel (.id (n! "ctx")) (n! "state")) (.int 3)) .nil)) (.cons
    (.define [n! "x"] (.cons (.call (.sel (.id (n! "ctx")) (n! "getX")) .nil false) .nil)) (.cons
    (.for (.define [n! "round"] (.cons (.int 0) .nil)) (.bin .lt (.id (n! "round")) (.id (n! "roundCount128"))) (.opAssign .add (.id (n! "round")) (.int 1)) (.cons
      (.define [n! "tk"] (.cons (.call (.sel (.sel (.id (n! "binary")) (n! "BigEndian")) (n! "Uint32")) (.cons (.call (.ty (.slice (.name (n! "byte")))) (.cons (.slc (.id (n! "k")) (.bin .mul (.id (n! "round")) (.int 4)) (.bin .add (.bin .mul (.id (n! "round")) (.int 4)) (.int 4))) .nil) false) .nil) false) .nil)) (.cons
      (.define [n! "tkk"] (.cons (.call (.sel (.sel (.id (n! "binary")) (n! "BigEndian")) (n! "Uint32")) (.cons (.call (.ty (.slice (.name (n! "byte")))) (.cons (.slc (.id (n! "kk128")) (.bin .mul (.id (n! "round")) (.int 4)) (.bin .add (.bin .mul (.id (n! "round")) (.int 4)) (.int 4))) .nil) false) .nil) false) .nil)) (.cons
      (.define [n! "n"] (.cons (.bin .mul (.bin .add (.id (n! "round")) (.int 1)) (.int 16)) .nil)) (.cons
      (.for (.define [n! "j"] (.cons (.bin .mul (.id (n! "round")) (.int 16)) .nil)) (.bin .lt (.id (n! "j")) (.id (n! "n"))) (.opAssign .add (.id (n! "j")) (.int 1)) (.cons
        (.define [n! "t"] (.cons (.call (.sel (.id (n! "bits")) (n! "RotateLeft32")) (.cons (.bin .add (.bin .add (.bin .add (.id (n! "a")) (.call (.idx (.id (n! "f")) (.id (n! "round"))) (.cons (.id (n! "b")) (.cons (.id (n! "c")) (.cons (.id (n! "d")) .nil))) false)) (.idx (.id (n! "x")) (.idx (.id (n! "r")) (.id (n! "j"))))) (.id (n! "tk"))) (.cons (.call (.id (n! "int")) (.cons (.idx (.id (n! "s")) (.id (n! "j"))) .nil) false) .nil)) false) .nil)) (.cons
        (.assign (.cons (.id (n! "a")) (.cons (.id (n! "d")) (.cons (.id (n! "c")) (.cons (.id (n! "b")) .nil)))) (.cons (.id (n! "d")) (.cons (.id (n! "c")) (.cons (.id (n! "b")) (.cons (.id (n! "t")) .nil))))) (.cons
        (.assign (.cons (.id (n! "t")) .nil) (.cons (.call (.sel (.id (n! "bits")) (n! "RotateLeft32")) (.cons (.bin .add (.bin .add (.bin .add (.id (n! "aa")) (.call (.idx (.id (n! "f")) (.bin .sub (.int 3) (.id (n! "round")))) (.cons (.id (n! "bb")) (.cons (.id (n! "cc")) (.cons (.id (n! "dd")) .nil))) false)) (.idx (.id (n! "x")) (.idx (.id (n! "rr")) (.id (n! "j"))))) (.id (n! "tkk"))) (.cons (.call (.id (n! "int")) (.cons (.idx (.id (n! "ss")) (.id (n! "j"))) .nil) false) .nil)) false) .nil)) (.cons
        (.assign (.cons (.id (n! "aa")) (.cons (.id (n! "dd")) (.cons (.id (n! "cc")) (.cons (.id (n! "bb")) .nil)))) (.cons (.id (n! "dd")) (.cons (.id (n! "cc")) (.cons (.id (n! "bb")) (.cons (.id (n! "t")) .nil))))) .nil))))) .nil))))) (.cons
    (.define [n! "t"] (.cons (.bin .add (.bin .add (.idx (.sel (.id (n! "ctx")) (n! "state")) (.int 1)) (.id (n! "c"))) (.id (n! "dd"))) .nil)) (.cons
    (.assign (.cons (.idx (.sel (.id (n! "ctx")) (n! "state")) (.int 1)) .nil) (.cons (.bin .add (.bin .add (.idx (.sel (.id (n! "ctx")) (n! "state")) (.int 2)) (.id (n! "d"))) (.id (n! "aa"))) .nil)) (.cons
    (.assign (.cons (.idx (.sel (.id (n! "ctx")) (n! "state")) (.int 2)) .nil) (.cons (.bin .add (.bin .add (.idx (.sel (.id (n! "ctx")) (n! "state")) (.int 3)) (.id (n! "a"))) (.id (n! "bb"))) .nil)) (.cons
    (.assign (.cons (.idx (.sel (.id (n! "ctx")) (n! "state")) (.int 3)) .nil) (.cons (.bin .add (.bin .add (.idx (.sel (.id (n! "ctx")) (n! "state")) (.int 0)) (.id (n! "b"))) (.id (n! "cc"))) .nil)) (.cons
    (.assign (.cons (.idx (.sel (.id (n! "ctx")) (n! "state")) (.int 0)) .nil) (.cons (.id (n! "t")) .nil)) (.cons
    (.assign (.cons (.sel (.id (n! "ctx")) (n! "bPos")) .nil) (.cons (.int 0) .nil)) .nil))))))))))))))))

def New128 : Decl :=
  .func 0 false 0 (n! "New128") .nil (.cons 0 (.qual (n! "hash") (n! "Hash")) .nil) (.cons
    (.define [n! "c"] (.cons (.un .addr (.comp (.name (n! "ripeCtx")) (.cons (n! "hash") (.id (n! "hash128")) (.cons (n! "stateLen") (.id (n! "hashSize128u32")) .nil)))) .nil)) (.cons
    (.expr (.call (.sel (.id (n! "c")) (n! "Reset")) .nil false)) (.cons
    (.ret (.cons (.id (n! "c")) .nil)) .nil)))

/-- The syntax tree. -/
def file : File := ⟨n! "ripemd", [[101, 110, 99, 111, 100, 105, 110, 103, 47, 98, 105, 110, 97, 114, 121], [104, 97, 115, 104], [109, 97, 116, 104, 47, 98, 105, 116, 115]], [
  (.const (n! "roundCount128") (.int 4)),
  (.const (n! "hashSize128u32") (.int 4)),
  hash128,
  New128]⟩

/-- The parser finds this tree in the text. -/
theorem parsed : parse src = some file := by kernel_rfl

end Source.Ripe128
