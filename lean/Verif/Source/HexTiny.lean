import Verif.Lang.Parser

/-!
# Source of encoding/hex/hex_tiny.go

The text of the file, line by line without line ends, and its syntax tree as found by the parser. Generated by `tools/source.py`.
-/
namespace Source.HexTiny
open GoLang

/-- The text. -/
def src : List String := [
r#"// Copyright 2022 gnabgib"#,
r#"// This Source Code Form is subject to the terms of the Mozilla Public License v2.0"#,
r#""#,
r#"//go:build tiny"#,
r#"// +build tiny"#,
r#""#,
r#"package hex"#,
r#""#,
r#"// Instead of a 256 byte table, use a mask and some bit shifting to convert (~50% slower)"#,
r#""#,
r#"const mask6 = 0b11011111"#,
r#""#,
r#"//Convert a hex-char byte (0-9,a-f,A-F) into a byte (0-15, >15 invalid)"#,
r#"func decode(b byte) byte {"#,
r#"	// Zero out th 6th bit, subtract 48 and a further 7 when value >17"#,
r#"	// Takes ~950ns, uses 1 byte"#,
r#""#,
r#"	//Surprisingly a branch here is swifter than bit shift and invert (-200ns)"#,
r#"	// mask:=^(((b+6)>>1)&0b00100000)"#,
r#"	// b=(b&mask)-48"#,
r#"	if b > 57 {"#,
r#"		//Fold a-f -> A-F,"#,
r#"		//Push :-? into invalid territory"#,
r#"		//Make sure max numbers are 32 lower"#,
r#"		b &= mask6"#,
r#"	}"#,
r#"	b -= 48"#,
r#""#,
r#"	//0-9 are now 0-9            - Good"#,
r#"	//:-? are out of range       - Good"#,
r#"	//a-f are converted into A-F - Good"#,
r#"	//A-F are 17-22              - FIX"#,
r#"	//Instead of a divide (/17) or a branch (>=17), let's +15 and make sure it's"#,
r#"	// a multiple of 32 before subtracting 7"#,
r#"	return b - 7*((b+15)>>5)"#,
r#"}"#,
r#""#]

def decode : Decl :=
  .func 0 false 0 (n! "decode") (.cons (n! "b") (.name (n! "byte")) .nil) (.cons 0 (.name (n! "byte")) .nil) (.cons
    (.ifs .skip (.bin .gt (.id (n! "b")) (.int 57)) (.cons
      (.opAssign .and (.id (n! "b")) (.id (n! "mask6"))) .nil) .nil) (.cons
    (.opAssign .sub (.id (n! "b")) (.int 48)) (.cons
    (.ret (.cons (.bin .sub (.id (n! "b")) (.bin .mul (.int 7) (.bin .shr (.bin .add (.id (n! "b")) (.int 15)) (.int 5)))) .nil)) .nil)))

/-- The syntax tree. -/
def file : File := ⟨n! "hex", [], [
  (.const (n! "mask6") (.int 223)),
  decode]⟩

/-- The parser finds this tree in the text. -/
theorem parsed : parse src = some file := by kernel_rfl

end Source.HexTiny
