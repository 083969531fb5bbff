import Verif.Lang.Parser

/-!
# Source of bytes/Add.go

The text of the file, line by line without line ends, and its syntax tree as found by the parser. Generated by `tools/source.py`.
-/
namespace Source.BytesAdd
open GoLang

/-- The text. -/
def src : List String := [
r#"// Copyright 2023 gnabgib"#,
r#"// This Source Code Form is subject to the terms of the Mozilla Public License v2.0"#,
r#""#,
r#"package bytes"#,
r#""#,
r#"import ("#,
r#"	"encoding/binary""#,
r#""#,
r#"	"github.com/gnabgib/gnablib-go/endian""#,
r#")"#,
r#""#,
r#"const ("#,
r#"	bytes16  = 2"#,
r#"	bytes32  = 4"#,
r#"	bytes64 = 8"#,
r#"	bytes128 = 16"#,
r#"	bytes256 = 32"#,
r#"	bytes512 = 64"#,
r#")"#,
r#""#,
r#"// Add the first 2 bytes of two byte arrays as if they're 16bit integers"#,
r#"// in platform endian format"#,
r#"func Add16(sum, a, b []byte) (carry byte, err error) {"#,
r#"	if endian.Platform == binary.LittleEndian {"#,
r#"		err = padLE(sum, a, bytes16)"#,
r#"		carry = addEq16LE(sum, b, 0)"#,
r#"	} else {"#,
r#"		err = padBE(sum, a, bytes16)"#,
r#"		carry = addEq16BE(sum, b, 0)"#,
r#"	}"#,
r#"	return"#,
r#"}"#,
r#""#,
r#"// Add the first 4 bytes of two byte arrays as if they're 32bit integers"#,
r#"// in platform endian format"#,
r#"func Add32(sum, a, b []byte) (carry byte, err error) {"#,
r#"	if endian.Platform == binary.LittleEndian {"#,
r#"		err = padLE(sum, a, bytes32)"#,
r#"		carry = addEq32LE(sum, b, 0)"#,
r#"	} else {"#,
r#"		err = padBE(sum, a, bytes32)"#,
r#"		carry = addEq32BE(sum, b, 0)"#,
r#"	}"#,
r#"	return"#,
r#"}"#,
r#""#,
r#"// Add the first 8 bytes of two byte arrays as if they're 64bit integers"#,
r#"// in platform endian format"#,
r#"func Add64(sum, a, b []byte) (carry byte, err error) {"#,
r#"	"#,
r#"	if endian.Platform == binary.LittleEndian {"#,
r#"		carry,err = Add64LE(sum,a,b)"#,
r#"	} else {"#,
r#"		carry,err = Add64BE(sum,a,b)"#,
r#"	}"#,
r#"	return"#,
r#"}"#,
r#""#,
r#"// Add the first 16 bytes of two byte arrays as if they're 128bit integers"#,
r#"// in platform endian format"#,
r#"func Add128(sum, a, b []byte) (carry byte, err error) {"#,
r#"	if endian.Platform == binary.LittleEndian {"#,
r#"		carry,err = Add128LE(sum,a,b)"#,
r#"	} else {"#,
r#"		carry,err = Add128BE(sum,a,b)"#,
r#"	}"#,
r#"	return"#,
r#"}"#,
r#""#,
r#"// Add the first 32 bytes of two byte arrays as if they're 256bit integers"#,
r#"// in platform endian format"#,
r#"func Add256(sum, a, b []byte) (carry byte, err error) {"#,
r#"	if endian.Platform == binary.LittleEndian {"#,
r#"		carry,err = Add256LE(sum,a,b)"#,
r#"	} else {"#,
r#"		carry,err = Add256BE(sum,a,b)"#,
r#"	}"#,
r#"	return"#,
r#"}"#,
r#""#,
r#"// Add the first 64 bytes of two byte arrays as if they're 512bit integers"#,
r#"// in platform endian format"#,
r#"func Add512(sum, a, b []byte) (carry byte, err error) {"#,
r#"	if endian.Platform == binary.LittleEndian {"#,
r#"		carry,err = Add512LE(sum,a,b)"#,
r#"	} else {"#,
r#"		carry,err = Add512BE(sum,a,b)"#,
r#"	}"#,
r#"	return"#,
r#"}"#,
r#""#,
r#"// Update sum to add bytes from b in integer format"#,
r#"// - `sum` MUST have at least 1 byte of content"#,
r#"// - `b` can have any number of bytes, 0-1 will be used"#,
r#"// - Only 0/1 will be read from `carryBit`"#,
r#"// - `carry` can only contain 0/1"#,
r#"func addEq8(sum, b []byte, carryBit byte) (carry byte) {"#,
r#"	a16 := uint16(sum[0])"#,
r#"	b16 := uint16(0)"#,
r#"	if len(b) > 0 {"#,
r#"		b16 = uint16(b[0])"#,
r#"	}"#,
r#"	c16 := a16 + b16 + uint16(carryBit&1)"#,
r#"	sum[0] = byte(c16)"#,
r#"	carry = byte(c16 >> 8)"#,
r#"	return"#,
r#"}"#,
r#""#]

def Add16 : Decl :=
  .func 0 false 0 (n! "Add16") (.cons (n! "sum") (.slice (.name (n! "byte"))) (.cons (n! "a") (.slice (.name (n! "byte"))) (.cons (n! "b") (.slice (.name (n! "byte"))) .nil))) (.cons (n! "carry") (.name (n! "byte")) (.cons (n! "err") (.name (n! "error")) .nil)) (.cons
    (.ifs .skip (.bin .eq (.sel (.id (n! "endian")) (n! "Platform")) (.sel (.id (n! "binary")) (n! "LittleEndian"))) (.cons
      (.assign (.cons (.id (n! "err")) .nil) (.cons (.call (.id (n! "padLE")) (.cons (.id (n! "sum")) (.cons (.id (n! "a")) (.cons (.id (n! "bytes16")) .nil))) false) .nil)) (.cons
      (.assign (.cons (.id (n! "carry")) .nil) (.cons (.call (.id (n! "addEq16LE")) (.cons (.id (n! "sum")) (.cons (.id (n! "b")) (.cons (.int 0) .nil))) false) .nil)) .nil)) (.cons
      (.assign (.cons (.id (n! "err")) .nil) (.cons (.call (.id (n! "padBE")) (.cons (.id (n! "sum")) (.cons (.id (n! "a")) (.cons (.id (n! "bytes16")) .nil))) false) .nil)) (.cons
      (.assign (.cons (.id (n! "carry")) .nil) (.cons (.call (.id (n! "addEq16BE")) (.cons (.id (n! "sum")) (.cons (.id (n! "b")) (.cons (.int 0) .nil))) false) .nil)) .nil))) (.cons
    (.ret .nil) .nil))

def Add32 : Decl :=
  .func 0 false 0 (n! "Add32") (.cons (n! "sum") (.slice (.name (n! "byte"))) (.cons (n! "a") (.slice (.name (n! "byte"))) (.cons (n! "b") (.slice (.name (n! "byte"))) .nil))) (.cons (n! "carry") (.name (n! "byte")) (.cons (n! "err") (.name (n! "error")) .nil)) (.cons
    (.ifs .skip (.bin .eq (.sel (.id (n! "endian")) (n! "Platform")) (.sel (.id (n! "binary")) (n! "LittleEndian"))) (.cons
      (.assign (.cons (.id (n! "err")) .nil) (.cons (.call (.id (n! "padLE")) (.cons (.id (n! "sum")) (.cons (.id (n! "a")) (.cons (.id (n! "bytes32")) .nil))) false) .nil)) (.cons
      (.assign (.cons (.id (n! "carry")) .nil) (.cons (.call (.id (n! "addEq32LE")) (.cons (.id (n! "sum")) (.cons (.id (n! "b")) (.cons (.int 0) .nil))) false) .nil)) .nil)) (.cons
      (.assign (.cons (.id (n! "err")) .nil) (.cons (.call (.id (n! "padBE")) (.cons (.id (n! "sum")) (.cons (.id (n! "a")) (.cons (.id (n! "bytes32")) .nil))) false) .nil)) (.cons
      (.assign (.cons (.id (n! "carry")) .nil) (.cons (.call (.id (n! "addEq32BE")) (.cons (.id (n! "sum")) (.cons (.id (n! "b")) (.cons (.int 0) .nil))) false) .nil)) .nil))) (.cons
    (.ret .nil) .nil))

def Add64 : Decl :=
  .func 0 false 0 (n! "Add64") (.cons (n! "sum") (.slice (.name (n! "byte"))) (.cons (n! "a") (.slice (.name (n! "byte"))) (.cons (n! "b") (.slice (.name (n! "byte"))) .nil))) (.cons (n! "carry") (.name (n! "byte")) (.cons (n! "err") (.name (n! "error")) .nil)) (.cons
    (.ifs .skip (.bin .eq (.sel (.id (n! "endian")) (n! "Platform")) (.sel (.id (n! "binary")) (n! "LittleEndian"))) (.cons
      (.assign (.cons (.id (n! "carry")) (.cons (.id (n! "err")) .nil)) (.cons (.call (.id (n! "Add64LE")) (.cons (.id (n! "sum")) (.cons (.id (n! "a")) (.cons (.id (n! "b")) .nil))) false) .nil)) .nil) (.cons
      (.assign (.cons (.id (n! "carry")) (.cons (.id (n! "err")) .nil)) (.cons (.call (.id (n! "Add64BE")) (.cons (.id (n! "sum")) (.cons (.id (n! "a")) (.cons (.id (n! "b")) .nil))) false) .nil)) .nil)) (.cons
    (.ret .nil) .nil))

def Add128 : Decl :=
  .func 0 false 0 (n! "Add128") (.cons (n! "sum") (.slice (.name (n! "byte"))) (.cons (n! "a") (.slice (.name (n! "byte"))) (.cons (n! "b") (.slice (.name (n! "byte"))) .nil))) (.cons (n! "carry") (.name (n! "byte")) (.cons (n! "err") (.name (n! "error")) .nil)) (.cons
    (.ifs .skip (.bin .eq (.sel (.id (n! "endian")) (n! "Platform")) (.sel (.id (n! "binary")) (n! "LittleEndian"))) (.cons
      (.assign (.cons (.id (n! "carry")) (.cons (.id (n! "err")) .nil)) (.cons (.call (.id (n! "Add128LE")) (.cons (.id (n! "sum")) (.cons (.id (n! "a")) (.cons (.id (n! "b")) .nil))) false) .nil)) .nil) (.cons
      (.assign (.cons (.id (n! "carry")) (.cons (.id (n! "err")) .nil)) (.cons (.call (.id (n! "Add128BE")) (.cons (.id (n! "sum")) (.cons (.id (n! "a")) (.cons (.id (n! "b")) .nil))) false) .nil)) .nil)) (.cons
    (.ret .nil) .nil))

def Add256 : Decl :=
  .func 0 false 0 (n! "Add256") (.cons (n! "sum") (.slice (.name (n! "byte"))) (.cons (n! "a") (.slice (.name (n! "byte"))) (.cons (n! "b") (.slice (.name (n! "byte"))) .nil))) (.cons (n! "carry") (.name (n! "byte")) (.cons (n! "err") (.name (n! "error")) .nil)) (.cons
    (.ifs .skip (.bin .eq (.sel (.id (n! "endian")) (n! "Platform")) (.sel (.id (n! "binary")) (n! "LittleEndian"))) (.cons
      (.assign (.cons (.id (n! "carry")) (.cons (.id (n! "err")) .nil)) (.cons (.call (.id (n! "Add256LE")) (.cons (.id (n! "sum")) (.cons (.id (n! "a")) (.cons (.id (n! "b")) .nil))) false) .nil)) .nil) (.cons
      (.assign (.cons (.id (n! "carry")) (.cons (.id (n! "err")) .nil)) (.cons (.call (.id (n! "Add256BE")) (.cons (.id (n! "sum")) (.cons (.id (n! "a")) (.cons (.id (n! "b")) .nil))) false) .nil)) .nil)) (.cons
    (.ret .nil) .nil))

def Add512 : Decl :=
  .func 0 false 0 (n! "Add512") (.cons (n! "sum") (.slice (.name (n! "byte"))) (.cons (n! "a") (.slice (.name (n! "byte"))) (.cons (n! "b") (.slice (.name (n! "byte"))) .nil))) (.cons (n! "carry") (.name (n! "byte")) (.cons (n! "err") (.name (n! "error")) .nil)) (.cons
    (.ifs .skip (.bin .eq (.sel (.id (n! "endian")) (n! "Platform")) (.sel (.id (n! "binary")) (n! "LittleEndian"))) (.cons
      (.assign (.cons (.id (n! "carry")) (.cons (.id (n! "err")) .nil)) (.cons (.call (.id (n! "Add512LE")) (.cons (.id (n! "sum")) (.cons (.id (n! "a")) (.cons (.id (n! "b")) .nil))) false) .nil)) .nil) (.cons
      (.assign (.cons (.id (n! "carry")) (.cons (.id (n! "err")) .nil)) (.cons (.call (.id (n! "Add512BE")) (.cons (.id (n! "sum")) (.cons (.id (n! "a")) (.cons (.id (n! "b")) .nil))) false) .nil)) .nil)) (.cons
    (.ret .nil) .nil))

def addEq8 : Decl :=
  .func 0 false 0 (n! "addEq8") (.cons (n! "sum") (.slice (.name (n! "byte"))) (.cons (n! "b") (.slice (.name (n! "byte"))) (.cons (n! "carryBit") (.name (n! "byte")) .nil))) (.cons (n! "carry") (.name (n! "byte")) .nil) (.cons
    (.define [n! "a16"] (.cons (.call (.id (n! "uint16")) (.cons (.idx (.id (n! "sum")) (.int 0)) .nil) false) .nil)) (.cons
    (.define [n! "b16"] (.cons (.call (.id (n! "uint16")) (.cons (.int 0) .nil) false) .nil)) (.cons
    (.ifs .skip (.bin .gt (.call (.id (n! "len")) (.cons (.id (n! "b")) .nil) false) (.int 0)) (.cons
      (.assign (.cons (.id (n! "b16")) .nil) (.cons (.call (.id (n! "uint16")) (.cons (.idx (.id (n! "b")) (.int 0)) .nil) false) .nil)) .nil) .nil) (.cons
    (.define [n! "c16"] (.cons (.bin .add (.bin .add (.id (n! "a16")) (.id (n! "b16"))) (.call (.id (n! "uint16")) (.cons (.bin .and (.id (n! "carryBit")) (.int 1)) .nil) false)) .nil)) (.cons
    (.assign (.cons (.idx (.id (n! "sum")) (.int 0)) .nil) (.cons (.call (.id (n! "byte")) (.cons (.id (n! "c16")) .nil) false) .nil)) (.cons
    (.assign (.cons (.id (n! "carry")) .nil) (.cons (.call (.id (n! "byte")) (.cons (.bin .shr (.id (n! "c16")) (.int 8)) .nil) false) .nil)) (.cons
    (.ret .nil) .nil)))))))

/-- The syntax tree. -/
def file : File := ⟨n! "bytes", [[101, 110, 99, 111, 100, 105, 110, 103, 47, 98, 105, 110, 97, 114, 121], [103, 105, 116, 104, 117, 98, 46, 99, 111, 109, 47, 103, 110, 97, 98, 103, 105, 98, 47, 103, 110, 97, 98, 108, 105, 98, 45, 103, 111, 47, 101, 110, 100, 105, 97, 110]], [
  (.const (n! "bytes16") (.int 2)),
  (.const (n! "bytes32") (.int 4)),
  (.const (n! "bytes64") (.int 8)),
  (.const (n! "bytes128") (.int 16)),
  (.const (n! "bytes256") (.int 32)),
  (.const (n! "bytes512") (.int 64)),
  Add16,
  Add32,
  Add64,
  Add128,
  Add256,
  Add512,
  addEq8]⟩

/-- The parser finds this tree in the text. -/
theorem parsed : parse src = some file := by kernel_rfl

end Source.BytesAdd
