import Verif.Lang.Parser

/-!
# Source of endian/endian.go

The text of the file, line by line without line ends, and its syntax tree as found by the parser. Generated by `tools/source.py`.
-/
namespace Source.Endian
open GoLang

/-- The text. -/
def src : List String := [
r#"// Copyright 2022 gnabgib"#,
r#"// This Source Code Form is subject to the terms of the Mozilla Public License v2.0"#,
r#""#,
r#"package endian"#,
r#""#,
r#"import ("#,
r#"	"encoding/binary""#,
r#"	"unsafe""#,
r#")"#,
r#""#,
r#"// The native endianness of execution platform"#,
r#"var Platform binary.ByteOrder"#,
r#""#,
r#"// The endianness of source code (always big)"#,
r#"var SourceCode binary.ByteOrder"#,
r#""#,
r#"// The endianness of networks (big by convention)"#,
r#"var Network binary.ByteOrder"#,
r#""#,
r#"func init() {"#,
r#"	//We always write source code in big-endian"#,
r#"	SourceCode = binary.BigEndian"#,
r#"	//Network order is also always big-endian"#,
r#"	Network = binary.BigEndian"#,
r#""#,
r#"	//While the majority of platforms are little-endian, let's detect with a pointer cast"#,
r#"	b := [2]byte{}"#,
r#"	*(*uint16)(unsafe.Pointer(&b[0])) = uint16(0xABCD)"#,
r#"	switch b[0] {"#,
r#"	case 0xCD:"#,
r#"		Platform = binary.LittleEndian"#,
r#"	case 0xAB:"#,
r#"		Platform = binary.BigEndian"#,
r#"	default:"#,
r#"		//We could default to LE, but this should also never fail and"#,
r#"		// we want bug reports if it does"#,
r#"		panic("Endian detection problem")"#,
r#"	}"#,
r#"}"#,
r#""#]

def init : Decl :=
  .func 0 false 0 (n! "init") .nil .nil (.cons
    (.assign (.cons (.id (n! "SourceCode")) .nil) (.cons (.sel (.id (n! "binary")) (n! "BigEndian")) .nil)) (.cons
    (.assign (.cons (.id (n! "Network")) .nil) (.cons (.sel (.id (n! "binary")) (n! "BigEndian")) .nil)) (.cons
    (.define [n! "b"] (.cons (.comp (.array (.int 2) (.name (n! "byte"))) .nil) .nil)) (.cons
    (.assign (.cons (.un .deref (.call (.un .deref (.id (n! "uint16"))) (.cons (.call (.sel (.id (n! "unsafe")) (n! "Pointer")) (.cons (.un .addr (.idx (.id (n! "b")) (.int 0))) .nil) false) .nil) false)) .nil) (.cons (.call (.id (n! "uint16")) (.cons (.int 43981) .nil) false) .nil)) (.cons
    (.switch (.idx (.id (n! "b")) (.int 0)) (.cons (.cons (.int 205) .nil) (.cons
      (.assign (.cons (.id (n! "Platform")) .nil) (.cons (.sel (.id (n! "binary")) (n! "LittleEndian")) .nil)) .nil) (.cons (.cons (.int 171) .nil) (.cons
      (.assign (.cons (.id (n! "Platform")) .nil) (.cons (.sel (.id (n! "binary")) (n! "BigEndian")) .nil)) .nil) (.cons .nil (.cons
      (.expr (.call (.id (n! "panic")) (.cons (.str [69, 110, 100, 105, 97, 110, 32, 100, 101, 116, 101, 99, 116, 105, 111, 110, 32, 112, 114, 111, 98, 108, 101, 109]) .nil) false)) .nil) .nil)))) .nil)))))

/-- The syntax tree. -/
def file : File := ⟨n! "endian", [[101, 110, 99, 111, 100, 105, 110, 103, 47, 98, 105, 110, 97, 114, 121], [117, 110, 115, 97, 102, 101]], [
  (.var (n! "Platform") (.qual (n! "binary") (n! "ByteOrder")) .none),
  (.var (n! "SourceCode") (.qual (n! "binary") (n! "ByteOrder")) .none),
  (.var (n! "Network") (.qual (n! "binary") (n! "ByteOrder")) .none),
  init]⟩

/-- The parser finds this tree in the text. -/
theorem parsed : parse src = some file := by kernel_rfl

end Source.Endian
