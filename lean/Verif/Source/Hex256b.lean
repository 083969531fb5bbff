import Verif.Lang.Parser

/-!
# Source of encoding/hex/hex_256b.go

The text of the file, line by line without line ends, and its syntax tree as found by the parser. Generated by `tools/source.py`.
-/
namespace Source.Hex256b
open GoLang

/-- The text. -/
def src : List String := [
r#"// Copyright 2022 gnabgib"#,
r#"// This Source Code Form is subject to the terms of the Mozilla Public License v2.0"#,
r#""#,
r#"//go:build !tiny"#,
r#"// +build !tiny"#,
r#""#,
r#"package hex"#,
r#""#,
r#"// Decode a hex value using a 256byte lookup table.. for embedded (tiny) applications"#,
r#"// this might be too much memory space to use"#,
r#""#,
r#"const asciiDecode = "" +"#,
r#"	//0-31 NULL-Unit sep"#,
r#"	"~~~~~~~~~~~~~~~~" + "~~~~~~~~~~~~~~~~" +"#,
r#"	//32-63 Space-?"#,
r#"	"~~~~~~~~~~~~~~~~" + "\x00\x01\x02\x03\x04\x05\x06\x07\x08\x09~~~~~~" +"#,
r#"	//64-95 @-_"#,
r#"	"~\x0A\x0B\x0C\x0D\x0E\x0F~~~~~~~~~" + "~~~~~~~~~~~~~~~~" +"#,
r#"	//96-127 `-DEL"#,
r#"	"~\x0A\x0B\x0C\x0D\x0E\x0F~~~~~~~~~" + "~~~~~~~~~~~~~~~~" +"#,
r#"	//128+ (invalid ascii)"#,
r#"	"~~~~~~~~~~~~~~~~" + "~~~~~~~~~~~~~~~~" +"#,
r#"	"~~~~~~~~~~~~~~~~" + "~~~~~~~~~~~~~~~~" +"#,
r#"	"~~~~~~~~~~~~~~~~" + "~~~~~~~~~~~~~~~~" +"#,
r#"	"~~~~~~~~~~~~~~~~" + "~~~~~~~~~~~~~~~~""#,
r#""#,
r#"//Convert a hex-char byte (0-9,a-f,A-F) into a byte (0-15, >15 invalid)"#,
r#"func decode(b byte) byte {"#,
r#"	return asciiDecode[b]"#,
r#"}"#,
r#""#]

def decode : Decl :=
  .func 0 false 0 (n! "decode") (.cons (n! "b") (.name (n! "byte")) .nil) (.cons 0 (.name (n! "byte")) .nil) (.cons
    (.ret (.cons (.idx (.id (n! "asciiDecode")) (.id (n! "b"))) .nil)) .nil)

/-- The syntax tree. -/
def file : File := ⟨n! "hex", [], [
  (.const (n! "asciiDecode") (.bin .add (.bin .add (.bin .add (.bin .add (.bin .add (.bin .add (.bin .add (.bin .add (.bin .add (.bin .add (.bin .add (.bin .add (.bin .add (.bin .add (.bin .add (.bin .add (.str []) (.str [126, 126, 126, 126, 126, 126, 126, 126, 126, 126, 126, 126, 126, 126, 126, 126])) (.str [126, 126, 126, 126, 126, 126, 126, 126, 126, 126, 126, 126, 126, 126, 126, 126])) (.str [126, 126, 126, 126, 126, 126, 126, 126, 126, 126, 126, 126, 126, 126, 126, 126])) (.str [0, 1, 2, 3, 4, 5, 6, 7, 8, 9, 126, 126, 126, 126, 126, 126])) (.str [126, 10, 11, 12, 13, 14, 15, 126, 126, 126, 126, 126, 126, 126, 126, 126])) (.str [126, 126, 126, 126, 126, 126, 126, 126, 126, 126, 126, 126, 126, 126, 126, 126])) (.str [126, 10, 11, 12, 13, 14, 15, 126, 126, 126, 126, 126, 126, 126, 126, 126])) (.str [126, 126, 126, 126, 126, 126, 126, 126, 126, 126, 126, 126, 126, 126, 126, 126])) (.str [126, 126, 126, 126, 126, 126, 126, 126, 126, 126, 126, 126, 126, 126, 126, 126])) (.str [126, 126, 126, 126, 126, 126, 126, 126, 126, 126, 126, 126, 126, 126, 126, 126])) (.str [126, 126, 126, 126, 126, 126, 126, 126, 126, 126, 126, 126, 126, 126, 126, 126])) (.str [126, 126, 126, 126, 126, 126, 126, 126, 126, 126, 126, 126, 126, 126, 126, 126])) (.str [126, 126, 126, 126, 126, 126, 126, 126, 126, 126, 126, 126, 126, 126, 126, 126])) (.str [126, 126, 126, 126, 126, 126, 126, 126, 126, 126, 126, 126, 126, 126, 126, 126])) (.str [126, 126, 126, 126, 126, 126, 126, 126, 126, 126, 126, 126, 126, 126, 126, 126])) (.str [126, 126, 126, 126, 126, 126, 126, 126, 126, 126, 126, 126, 126, 126, 126, 126]))),
  decode]⟩

/-- The parser finds this tree in the text. -/
theorem parsed : parse src = some file := by kernel_rfl

end Source.Hex256b
