import Verif.Lang.Parser

/-!
# Source of bytes/Zero.go

The text of the file, line by line without line ends, and its syntax tree as found by the parser. Generated by `tools/source.py`.
-/
namespace Source.BytesZero
open GoLang

/-- The text. -/
def src : List String := [
r#"// Copyright 2023 gnabgib"#,
r#"// This Source Code Form is subject to the terms of the Mozilla Public License v2.0"#,
r#""#,
r#"package bytes"#,
r#""#,
r#"const z8="\x00\x00\x00\x00\x00\x00\x00\x00""#,
r#""#,
r#"// Zero the content of a slice"#,
r#"func Zero(target []byte) {"#,
r#"	//Todo optimize with arch specific commands to speed up (AVX2)"#,
r#"	for len(target)>8 {"#,
r#"		copy(target,z8)"#,
r#"		target=target[8:]"#,
r#"	}"#,
r#"	//One last copy to get the 0-7 other elements"#,
r#"	copy(target,z8)"#,
r#"}"#]

def Zero : Decl :=
  .func 0 false 0 (n! "Zero") (.cons (n! "target") (.slice (.name (n! "byte"))) .nil) .nil (.cons
    (.for .skip (.bin .gt (.call (.id (n! "len")) (.cons (.id (n! "target")) .nil) false) (.int 8)) .skip (.cons
      (.expr (.call (.id (n! "copy")) (.cons (.id (n! "target")) (.cons (.id (n! "z8")) .nil)) false)) (.cons
      (.assign (.cons (.id (n! "target")) .nil) (.cons (.slc (.id (n! "target")) (.int 8) .none) .nil)) .nil))) (.cons
    (.expr (.call (.id (n! "copy")) (.cons (.id (n! "target")) (.cons (.id (n! "z8")) .nil)) false)) .nil))

/-- The syntax tree. -/
def file : File := ⟨n! "bytes", [], [
  (.const (n! "z8") (.str [0, 0, 0, 0, 0, 0, 0, 0])),
  Zero]⟩

/-- The parser finds this tree in the text. -/
theorem parsed : parse src = some file := by kernel_rfl

end Source.BytesZero
