import Verif.Lang.Parser

/-!
# Source of bytes/AddLE.go

The text of the file, line by line without line ends, and its syntax tree as found by the parser. Generated by `tools/source.py`.
-/
namespace Source.BytesAddLE
open GoLang

/-- The text. -/
def src : List String := [
r#"// Copyright 2023 gnabgib"#,
r#"// This Source Code Form is subject to the terms of the Mozilla Public License v2.0"#,
r#""#,
r#"package bytes"#,
r#""#,
r#"import ("#,
r#"	"encoding/binary""#,
r#")"#,
r#""#,
r#"// Add the first 64 bytes of two slices together into sum (which must have space),"#,
r#"// as if they're 512 bit little endian integers."#,
r#"// - `a` or `b` can have less than 64 bytes of content and will be zero padded (at the end)."#,
r#"// - `carry` will only contain a 0 or 1"#,
r#"func Add512LE(sum, a, b []byte) (carry byte, err error) {"#,
r#"	carry, err = addAnyLE(sum, a, b, bytes512)"#,
r#"	return"#,
r#"}"#,
r#""#,
r#"// Add the first 32 bytes of two slices together into sum (which must have space),"#,
r#"// as if they're 256 bit little endian integers."#,
r#"// - `a` or `b` can have less than 32 bytes of content and will be zero padded (at the end)."#,
r#"// - `carry` will only contain a 0 or 1"#,
r#"func Add256LE(sum, a, b []byte) (carry byte, err error) {"#,
r#"	carry, err = addAnyLE(sum, a, b, bytes256)"#,
r#"	return"#,
r#"}"#,
r#""#,
r#"// Add the first 16 bytes of two slices together into sum (which must have space),"#,
r#"// as if they're 128 bit little endian integers."#,
r#"// - `a` or `b` can have less than 16 bytes of content and will be zero padded (at the end)."#,
r#"// - `carry` will only contain a 0 or 1"#,
r#"func Add128LE(sum, a, b []byte) (carry byte, err error) {"#,
r#"	carry, err = addAnyLE(sum, a, b, bytes128)"#,
r#"	return"#,
r#"}"#,
r#""#,
r#"// Add the first 8 bytes of two slices together into sum (which must have space),"#,
r#"// as if they're 64 bit little endian integers."#,
r#"// - `a` or `b` can have less than 8 bytes of content and will be zero padded (at the end)."#,
r#"// - `carry` will only contain a 0 or 1"#,
r#"func Add64LE(sum, a, b []byte) (carry byte, err error) {"#,
r#"	carry, err = addAnyLE(sum, a, b, bytes64)"#,
r#"	return"#,
r#"}"#,
r#""#,
r#"// Add the first 4 bytes of two slices together into sum (which must have space),"#,
r#"// as if they're 32 bit little endian integers."#,
r#"// - `a` or `b` can have less than 4 bytes of content and will be zero padded (at the end)"#,
r#"// - `carry` will only contain a 0 or 1"#,
r#"func Add32LE(sum, a, b []byte) (carry byte, err error) {"#,
r#"	err = padLE(sum, a, bytes32)"#,
r#"	if err != nil {"#,
r#"		return"#,
r#"	}"#,
r#"	carry = addEq32LE(sum, b, 0)"#,
r#"	return"#,
r#"}"#,
r#""#,
r#"// Add the first 2 bytes of two slices together into sum (which must have space),"#,
r#"// as if they're 16 bit little endian integers."#,
r#"// - `a` or `b` can have less than 2  bytes of content and will be zero padded (at the end)"#,
r#"// - `carry` will only contain a 0 or 1"#,
r#"func Add16LE(sum, a, b []byte) (carry byte, err error) {"#,
r#"	err = padLE(sum, a, bytes16)"#,
r#"	if err != nil {"#,
r#"		return"#,
r#"	}"#,
r#"	carry = addEq16LE(sum, b, 0)"#,
r#"	return"#,
r#"}"#,
r#""#,
r#"// Add the first `byteSize` bytes of two byte arrays if they're byte*8"#,
r#"// bit little endian unsigned integers.  `carry` will only contain a 0 or 1"#,
r#"func addAnyLE(sum, a, b []byte, byteSize int) (carry byte, err error) {"#,
r#"	err = padLE(sum, a, byteSize)"#,
r#"	empty := []byte{}"#,
r#"	if err != nil {"#,
r#"		return"#,
r#"	}"#,
r#""#,
r#"	in32 := byteSize / bytes32"#,
r#"	in8 := byteSize % bytes32"#,
r#""#,
r#"	numU32 := 0"#,
r#"	numU16 := 0"#,
r#"	for ; numU32 < in32 && len(b) > bytes32; numU32++ {"#,
r#"		carry = addEq32LE(sum[numU32*bytes32:], b, carry)"#,
r#"		b=b[bytes32:]"#,
r#"	}"#,
r#"	//Add a partial B if there is one"#,
r#"	if len(b)>0 && numU32<in32 {"#,
r#"		carry = addEq32LE(sum[numU32*bytes32:], b, carry)"#,
r#"		numU32++"#,
r#"		b=b[len(b):]"#,
r#"	}"#,
r#"	//Zero the rest of the adds (we still propagate carry)"#,
r#"	for ; numU32 < in32; numU32++ {"#,
r#"		carry = addEq32LE(sum[numU32*bytes32:], empty, carry)"#,
r#"	}"#,
r#""#,
r#"	//Add a 16 bit if needed"#,
r#"	if in8 > 1 {"#,
r#"		carry = addEq16LE(sum[numU32*bytes32:], b, carry)"#,
r#"		//Update b"#,
r#"		if len(b) == 1 {"#,
r#"			b = b[1:]"#,
r#"		} else if len(b) >= bytes16 {"#,
r#"			b = b[bytes16:]"#,
r#"		}"#,
r#"		numU16++"#,
r#"		in8 -= 2"#,
r#"	}"#,
r#"	//Add 8 bit if needed (only one)"#,
r#"	if in8 > 0 {"#,
r#"		carry = addEq8(sum[numU32*bytes32+numU16*bytes16:], b, carry)"#,
r#"	}"#,
r#"	return"#,
r#"}"#,
r#""#,
r#"// Update sum to add bytes from b in little endian integer format"#,
r#"// - `sum` MUST have at least 4 bytes of content"#,
r#"// - `b` can have any number of bytes, 0-4 will be used"#,
r#"// - Only 0/1 will be read from `carryBit`"#,
r#"// - `carry` can only contain 0/1"#,
r#"func addEq32LE(sum, b []byte, carryBit byte) (carry byte) {"#,
r#"	a64 := uint64(binary.LittleEndian.Uint32(sum))"#,
r#"	b64 := uint64(0)"#,
r#"	n := bytes32"#,
r#"	if len(b) < n {"#,
r#"		n = len(b)"#,
r#"	}"#,
r#"	for i := 0; i < n; i++ {"#,
r#"		b64 += uint64(b[i]) << (8 * i)"#,
r#"	}"#,
r#""#,
r#"	c64 := a64 + b64 + uint64(carryBit&1)"#,
r#"	binary.LittleEndian.PutUint32(sum, uint32(c64))"#,
r#"	carry = byte(c64 >> 32)"#,
r#"	return"#,
r#"}"#,
r#""#,
r#"// Update sum to add bytes from b in little endian integer format"#,
r#"// - `sum` MUST have at least 2 bytes of content"#,
r#"// - `b` can have any number of bytes, 0-2 will be used"#,
r#"// - Only 0/1 will be read from `carryBit`"#,
r#"// - `carry` can only contain 0/1"#,
r#"func addEq16LE(sum, b []byte, carryBit byte) (carry byte) {"#,
r#"	a32 := uint32(binary.LittleEndian.Uint16(sum))"#,
r#"	b32 := uint32(0)"#,
r#"	i := 0"#,
r#"	n := bytes16"#,
r#"	if len(b) < n {"#,
r#"		n = len(b)"#,
r#"	}"#,
r#"	for ; i < n; i++ {"#,
r#"		b32 += uint32(b[i]) << (8 * i)"#,
r#"	}"#,
r#""#,
r#"	c32 := a32 + b32 + uint32(carryBit&1)"#,
r#"	binary.LittleEndian.PutUint16(sum, uint16(c32))"#,
r#"	carry = byte(c32 >> 16)"#,
r#"	return"#,
r#"}"#,
r#""#]

def Add512LE : Decl :=
  .func 0 false 0 (n! "Add512LE") (.cons (n! "sum") (.slice (.name (n! "byte"))) (.cons (n! "a") (.slice (.name (n! "byte"))) (.cons (n! "b") (.slice (.name (n! "byte"))) .nil))) (.cons (n! "carry") (.name (n! "byte")) (.cons (n! "err") (.name (n! "error")) .nil)) (.cons
    (.assign (.cons (.id (n! "carry")) (.cons (.id (n! "err")) .nil)) (.cons (.call (.id (n! "addAnyLE")) (.cons (.id (n! "sum")) (.cons (.id (n! "a")) (.cons (.id (n! "b")) (.cons (.id (n! "bytes512")) .nil)))) false) .nil)) (.cons
    (.ret .nil) .nil))

def Add256LE : Decl :=
  .func 0 false 0 (n! "Add256LE") (.cons (n! "sum") (.slice (.name (n! "byte"))) (.cons (n! "a") (.slice (.name (n! "byte"))) (.cons (n! "b") (.slice (.name (n! "byte"))) .nil))) (.cons (n! "carry") (.name (n! "byte")) (.cons (n! "err") (.name (n! "error")) .nil)) (.cons
    (.assign (.cons (.id (n! "carry")) (.cons (.id (n! "err")) .nil)) (.cons (.call (.id (n! "addAnyLE")) (.cons (.id (n! "sum")) (.cons (.id (n! "a")) (.cons (.id (n! "b")) (.cons (.id (n! "bytes256")) .nil)))) false) .nil)) (.cons
    (.ret .nil) .nil))

def Add128LE : Decl :=
  .func 0 false 0 (n! "Add128LE") (.cons (n! "sum") (.slice (.name (n! "byte"))) (.cons (n! "a") (.slice (.name (n! "byte"))) (.cons (n! "b") (.slice (.name (n! "byte"))) .nil))) (.cons (n! "carry") (.name (n! "byte")) (.cons (n! "err") (.name (n! "error")) .nil)) (.cons
    (.assign (.cons (.id (n! "carry")) (.cons (.id (n! "err")) .nil)) (.cons (.call (.id (n! "addAnyLE")) (.cons (.id (n! "sum")) (.cons (.id (n! "a")) (.cons (.id (n! "b")) (.cons (.id (n! "bytes128")) .nil)))) false) .nil)) (.cons
    (.ret .nil) .nil))

def Add64LE : Decl :=
  .func 0 false 0 (n! "Add64LE") (.cons (n! "sum") (.slice (.name (n! "byte"))) (.cons (n! "a") (.slice (.name (n! "byte"))) (.cons (n! "b") (.slice (.name (n! "byte"))) .nil))) (.cons (n! "carry") (.name (n! "byte")) (.cons (n! "err") (.name (n! "error")) .nil)) (.cons
    (.assign (.cons (.id (n! "carry")) (.cons (.id (n! "err")) .nil)) (.cons (.call (.id (n! "addAnyLE")) (.cons (.id (n! "sum")) (.cons (.id (n! "a")) (.cons (.id (n! "b")) (.cons (.id (n! "bytes64")) .nil)))) false) .nil)) (.cons
    (.ret .nil) .nil))

def Add32LE : Decl :=
  .func 0 false 0 (n! "Add32LE") (.cons (n! "sum") (.slice (.name (n! "byte"))) (.cons (n! "a") (.slice (.name (n! "byte"))) (.cons (n! "b") (.slice (.name (n! "byte"))) .nil))) (.cons (n! "carry") (.name (n! "byte")) (.cons (n! "err") (.name (n! "error")) .nil)) (.cons
    (.assign (.cons (.id (n! "err")) .nil) (.cons (.call (.id (n! "padLE")) (.cons (.id (n! "sum")) (.cons (.id (n! "a")) (.cons (.id (n! "bytes32")) .nil))) false) .nil)) (.cons
    (.ifs .skip (.bin .ne (.id (n! "err")) (.id (n! "nil"))) (.cons
      (.ret .nil) .nil) .nil) (.cons
    (.assign (.cons (.id (n! "carry")) .nil) (.cons (.call (.id (n! "addEq32LE")) (.cons (.id (n! "sum")) (.cons (.id (n! "b")) (.cons (.int 0) .nil))) false) .nil)) (.cons
    (.ret .nil) .nil))))

def Add16LE : Decl :=
  .func 0 false 0 (n! "Add16LE") (.cons (n! "sum") (.slice (.name (n! "byte"))) (.cons (n! "a") (.slice (.name (n! "byte"))) (.cons (n! "b") (.slice (.name (n! "byte"))) .nil))) (.cons (n! "carry") (.name (n! "byte")) (.cons (n! "err") (.name (n! "error")) .nil)) (.cons
    (.assign (.cons (.id (n! "err")) .nil) (.cons (.call (.id (n! "padLE")) (.cons (.id (n! "sum")) (.cons (.id (n! "a")) (.cons (.id (n! "bytes16")) .nil))) false) .nil)) (.cons
    (.ifs .skip (.bin .ne (.id (n! "err")) (.id (n! "nil"))) (.cons
      (.ret .nil) .nil) .nil) (.cons
    (.assign (.cons (.id (n! "carry")) .nil) (.cons (.call (.id (n! "addEq16LE")) (.cons (.id (n! "sum")) (.cons (.id (n! "b")) (.cons (.int 0) .nil))) false) .nil)) (.cons
    (.ret .nil) .nil))))

def addAnyLE : Decl :=
  .func 0 false 0 (n! "addAnyLE") (.cons (n! "sum") (.slice (.name (n! "byte"))) (.cons (n! "a") (.slice (.name (n! "byte"))) (.cons (n! "b") (.slice (.name (n! "byte"))) (.cons (n! "byteSize") (.name (n! "int")) .nil)))) (.cons (n! "carry") (.name (n! "byte")) (.cons (n! "err") (.name (n! "error")) .nil)) (.cons
    (.assign (.cons (.id (n! "err")) .nil) (.cons (.call (.id (n! "padLE")) (.cons (.id (n! "sum")) (.cons (.id (n! "a")) (.cons (.id (n! "byteSize")) .nil))) false) .nil)) (.cons
    (.define [n! "empty"] (.cons (.comp (.slice (.name (n! "byte"))) .nil) .nil)) (.cons
    (.ifs .skip (.bin .ne (.id (n! "err")) (.id (n! "nil"))) (.cons
      (.ret .nil) .nil) .nil) (.cons
    (.define [n! "in32"] (.cons (.bin .div (.id (n! "byteSize")) (.id (n! "bytes32"))) .nil)) (.cons
    (.define [n! "in8"] (.cons (.bin .rem (.id (n! "byteSize")) (.id (n! "bytes32"))) .nil)) (.cons
    (.define [n! "numU32"] (.cons (.int 0) .nil)) (.cons
    (.define [n! "numU16"] (.cons (.int 0) .nil)) (.cons
    (.for .skip (.bin .land (.bin .lt (.id (n! "numU32")) (.id (n! "in32"))) (.bin .gt (.call (.id (n! "len")) (.cons (.id (n! "b")) .nil) false) (.id (n! "bytes32")))) (.opAssign .add (.id (n! "numU32")) (.int 1)) (.cons
      (.assign (.cons (.id (n! "carry")) .nil) (.cons (.call (.id (n! "addEq32LE")) (.cons (.slc (.id (n! "sum")) (.bin .mul (.id (n! "numU32")) (.id (n! "bytes32"))) .none) (.cons (.id (n! "b")) (.cons (.id (n! "carry")) .nil))) false) .nil)) (.cons
      (.assign (.cons (.id (n! "b")) .nil) (.cons (.slc (.id (n! "b")) (.id (n! "bytes32")) .none) .nil)) .nil))) (.cons
    (.ifs .skip (.bin .land (.bin .gt (.call (.id (n! "len")) (.cons (.id (n! "b")) .nil) false) (.int 0)) (.bin .lt (.id (n! "numU32")) (.id (n! "in32")))) (.cons
      (.assign (.cons (.id (n! "carry")) .nil) (.cons (.call (.id (n! "addEq32LE")) (.cons (.slc (.id (n! "sum")) (.bin .mul (.id (n! "numU32")) (.id (n! "bytes32"))) .none) (.cons (.id (n! "b")) (.cons (.id (n! "carry")) .nil))) false) .nil)) (.cons
      (.opAssign .add (.id (n! "numU32")) (.int 1)) (.cons
      (.assign (.cons (.id (n! "b")) .nil) (.cons (.slc (.id (n! "b")) (.call (.id (n! "len")) (.cons (.id (n! "b")) .nil) false) .none) .nil)) .nil))) .nil) (.cons
    (.for .skip (.bin .lt (.id (n! "numU32")) (.id (n! "in32"))) (.opAssign .add (.id (n! "numU32")) (.int 1)) (.cons
      (.assign (.cons (.id (n! "carry")) .nil) (.cons (.call (.id (n! "addEq32LE")) (.cons (.slc (.id (n! "sum")) (.bin .mul (.id (n! "numU32")) (.id (n! "bytes32"))) .none) (.cons (.id (n! "empty")) (.cons (.id (n! "carry")) .nil))) false) .nil)) .nil)) (.cons
    (.ifs .skip (.bin .gt (.id (n! "in8")) (.int 1)) (.cons
      (.assign (.cons (.id (n! "carry")) .nil) (.cons (.call (.id (n! "addEq16LE")) (.cons (.slc (.id (n! "sum")) (.bin .mul (.id (n! "numU32")) (.id (n! "bytes32"))) .none) (.cons (.id (n! "b")) (.cons (.id (n! "carry")) .nil))) false) .nil)) (.cons
      (.ifs .skip (.bin .eq (.call (.id (n! "len")) (.cons (.id (n! "b")) .nil) false) (.int 1)) (.cons
        (.assign (.cons (.id (n! "b")) .nil) (.cons (.slc (.id (n! "b")) (.int 1) .none) .nil)) .nil) (.cons
        (.ifs .skip (.bin .ge (.call (.id (n! "len")) (.cons (.id (n! "b")) .nil) false) (.id (n! "bytes16"))) (.cons
          (.assign (.cons (.id (n! "b")) .nil) (.cons (.slc (.id (n! "b")) (.id (n! "bytes16")) .none) .nil)) .nil) .nil) .nil)) (.cons
      (.opAssign .add (.id (n! "numU16")) (.int 1)) (.cons
      (.opAssign .sub (.id (n! "in8")) (.int 2)) .nil)))) .nil) (.cons
    (.ifs .skip (.bin .gt (.id (n! "in8")) (.int 0)) (.cons
      (.assign (.cons (.id (n! "carry")) .nil) (.cons (.call (.id (n! "addEq8")) (.cons (.slc (.id (n! "sum")) (.bin .add (.bin .mul (.id (n! "numU32")) (.id (n! "bytes32"))) (.bin .mul (.id (n! "numU16")) (.id (n! "bytes16")))) .none) (.cons (.id (n! "b")) (.cons (.id (n! "carry")) .nil))) false) .nil)) .nil) .nil) (.cons
    (.ret .nil) .nil)))))))))))))

def addEq32LE : Decl :=
  .func 0 false 0 (n! "addEq32LE") (.cons (n! "sum") (.slice (.name (n! "byte"))) (.cons (n! "b") (.slice (.name (n! "byte"))) (.cons (n! "carryBit") (.name (n! "byte")) .nil))) (.cons (n! "carry") (.name (n! "byte")) .nil) (.cons
    (.define [n! "a64"] (.cons (.call (.id (n! "uint64")) (.cons (.call (.sel (.sel (.id (n! "binary")) (n! "LittleEndian")) (n! "Uint32")) (.cons (.id (n! "sum")) .nil) false) .nil) false) .nil)) (.cons
    (.define [n! "b64"] (.cons (.call (.id (n! "uint64")) (.cons (.int 0) .nil) false) .nil)) (.cons
    (.define [n! "n"] (.cons (.id (n! "bytes32")) .nil)) (.cons
    (.ifs .skip (.bin .lt (.call (.id (n! "len")) (.cons (.id (n! "b")) .nil) false) (.id (n! "n"))) (.cons
      (.assign (.cons (.id (n! "n")) .nil) (.cons (.call (.id (n! "len")) (.cons (.id (n! "b")) .nil) false) .nil)) .nil) .nil) (.cons
    (.for (.define [n! "i"] (.cons (.int 0) .nil)) (.bin .lt (.id (n! "i")) (.id (n! "n"))) (.opAssign .add (.id (n! "i")) (.int 1)) (.cons
      (.opAssign .add (.id (n! "b64")) (.bin .shl (.call (.id (n! "uint64")) (.cons (.idx (.id (n! "b")) (.id (n! "i"))) .nil) false) (.bin .mul (.int 8) (.id (n! "i"))))) .nil)) (.cons
    (.define [n! "c64"] (.cons (.bin .add (.bin .add (.id (n! "a64")) (.id (n! "b64"))) (.call (.id (n! "uint64")) (.cons (.bin .and (.id (n! "carryBit")) (.int 1)) .nil) false)) .nil)) (.cons
    (.expr (.call (.sel (.sel (.id (n! "binary")) (n! "LittleEndian")) (n! "PutUint32")) (.cons (.id (n! "sum")) (.cons (.call (.id (n! "uint32")) (.cons (.id (n! "c64")) .nil) false) .nil)) false)) (.cons
    (.assign (.cons (.id (n! "carry")) .nil) (.cons (.call (.id (n! "byte")) (.cons (.bin .shr (.id (n! "c64")) (.int 32)) .nil) false) .nil)) (.cons
    (.ret .nil) .nil)))))))))

def addEq16LE : Decl :=
  .func 0 false 0 (n! "addEq16LE") (.cons (n! "sum") (.slice (.name (n! "byte"))) (.cons (n! "b") (.slice (.name (n! "byte"))) (.cons (n! "carryBit") (.name (n! "byte")) .nil))) (.cons (n! "carry") (.name (n! "byte")) .nil) (.cons
    (.define [n! "a32"] (.cons (.call (.id (n! "uint32")) (.cons (.call (.sel (.sel (.id (n! "binary")) (n! "LittleEndian")) (n! "Uint16")) (.cons (.id (n! "sum")) .nil) false) .nil) false) .nil)) (.cons
    (.define [n! "b32"] (.cons (.call (.id (n! "uint32")) (.cons (.int 0) .nil) false) .nil)) (.cons
    (.define [n! "i"] (.cons (.int 0) .nil)) (.cons
    (.define [n! "n"] (.cons (.id (n! "bytes16")) .nil)) (.cons
    (.ifs .skip (.bin .lt (.call (.id (n! "len")) (.cons (.id (n! "b")) .nil) false) (.id (n! "n"))) (.cons
      (.assign (.cons (.id (n! "n")) .nil) (.cons (.call (.id (n! "len")) (.cons (.id (n! "b")) .nil) false) .nil)) .nil) .nil) (.cons
    (.for .skip (.bin .lt (.id (n! "i")) (.id (n! "n"))) (.opAssign .add (.id (n! "i")) (.int 1)) (.cons
      (.opAssign .add (.id (n! "b32")) (.bin .shl (.call (.id (n! "uint32")) (.cons (.idx (.id (n! "b")) (.id (n! "i"))) .nil) false) (.bin .mul (.int 8) (.id (n! "i"))))) .nil)) (.cons
    (.define [n! "c32"] (.cons (.bin .add (.bin .add (.id (n! "a32")) (.id (n! "b32"))) (.call (.id (n! "uint32")) (.cons (.bin .and (.id (n! "carryBit")) (.int 1)) .nil) false)) .nil)) (.cons
    (.expr (.call (.sel (.sel (.id (n! "binary")) (n! "LittleEndian")) (n! "PutUint16")) (.cons (.id (n! "sum")) (.cons (.call (.id (n! "uint16")) (.cons (.id (n! "c32")) .nil) false) .nil)) false)) (.cons
    (.assign (.cons (.id (n! "carry")) .nil) (.cons (.call (.id (n! "byte")) (.cons (.bin .shr (.id (n! "c32")) (.int 16)) .nil) false) .nil)) (.cons
    (.ret .nil) .nil))))))))))

/-- The syntax tree. -/
def file : File := ⟨n! "bytes", [[101, 110, 99, 111, 100, 105, 110, 103, 47, 98, 105, 110, 97, 114, 121]], [
  Add512LE,
  Add256LE,
  Add128LE,
  Add64LE,
  Add32LE,
  Add16LE,
  addAnyLE,
  addEq32LE,
  addEq16LE]⟩

/-- The parser finds this tree in the text. -/
theorem parsed : parse src = some file := by kernel_rfl

end Source.BytesAddLE
