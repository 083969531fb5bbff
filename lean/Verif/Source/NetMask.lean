import Verif.Lang.Parser

/-!
# Source of net/Mask.go

The text of the file, line by line without line ends, and its syntax tree as found by the parser. Generated by `tools/source.py`.
-/
namespace Source.NetMask
open GoLang

/-- The text. -/
def src : List String := [
r#"// Copyright 2022 gnabgib"#,
r#"// This Source Code Form is subject to the terms of the Mozilla Public License v2.0"#,
r#""#,
r#"package net"#,
r#""#,
r#"import ("#,
r#"	"encoding/binary""#,
r#"	"net""#,
r#")"#,
r#""#,
r#"// Convert a uint into an IPMask (from CIDR notation to go-internal)"#,
r#"func MaskFromByte(b byte) net.IPMask {"#,
r#"	mask := uint32(0xffffffff << (32 - b))"#,
r#"	ret := make([]byte, 4)"#,
r#"	binary.BigEndian.PutUint32(ret, mask)"#,
r#"	return ret"#,
r#"}"#,
r#""#,
r#"// Convert an IPMask into a byte, much like in CIDR notation (0-32)"#,
r#"func MaskToByte(m net.IPMask) byte {"#,
r#"	ret, _ := m.Size()"#,
r#"	return byte(ret)"#,
r#"}"#,
r#""#]

def MaskFromByte : Decl :=
  .func 0 false 0 (n! "MaskFromByte") (.cons (n! "b") (.name (n! "byte")) .nil) (.cons 0 (.qual (n! "net") (n! "IPMask")) .nil) (.cons
    (.define [n! "mask"] (.cons (.call (.id (n! "uint32")) (.cons (.bin .shl (.int 4294967295) (.bin .sub (.int 32) (.id (n! "b")))) .nil) false) .nil)) (.cons
    (.define [n! "ret"] (.cons (.call (.id (n! "make")) (.cons (.ty (.slice (.name (n! "byte")))) (.cons (.int 4) .nil)) false) .nil)) (.cons
    (.expr (.call (.sel (.sel (.id (n! "binary")) (n! "BigEndian")) (n! "PutUint32")) (.cons (.id (n! "ret")) (.cons (.id (n! "mask")) .nil)) false)) (.cons
    (.ret (.cons (.id (n! "ret")) .nil)) .nil))))

def MaskToByte : Decl :=
  .func 0 false 0 (n! "MaskToByte") (.cons (n! "m") (.qual (n! "net") (n! "IPMask")) .nil) (.cons 0 (.name (n! "byte")) .nil) (.cons
    (.define [n! "ret", n! "_"] (.cons (.call (.sel (.id (n! "m")) (n! "Size")) .nil false) .nil)) (.cons
    (.ret (.cons (.call (.id (n! "byte")) (.cons (.id (n! "ret")) .nil) false) .nil)) .nil))

/-- The syntax tree. -/
def file : File := ⟨n! "net", [[101, 110, 99, 111, 100, 105, 110, 103, 47, 98, 105, 110, 97, 114, 121], [110, 101, 116]], [
  MaskFromByte,
  MaskToByte]⟩

/-- The parser finds this tree in the text. -/
theorem parsed : parse src = some file := by kernel_rfl

end Source.NetMask
