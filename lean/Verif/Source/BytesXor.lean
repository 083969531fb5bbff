import Verif.Lang.Parser

/-!
# Source of bytes/Xor.go

The text of the file, line by line without line ends, and its syntax tree as found by the parser. Generated by `tools/source.py`.
-/
namespace Source.BytesXor
open GoLang

/-- The text. -/
def src : List String := [
r#"// Copyright 2022 gnabgib"#,
r#"// This Source Code Form is subject to the terms of the Mozilla Public License v2.0"#,
r#""#,
r#"package bytes"#,
r#""#,
r#"// XORs elements from `other` into `dst`.  Returns the number of elements"#,
r#"// XORed, which will be the minimum of len(dst) len(other)"#,
r#"// dst ^= other"#,
r#"func XorEq(dst,other []byte) (n int){"#,
r#"	n=len(dst)"#,
r#"	//If other is smaller, shrink xor count"#,
r#"	if len(other)<n {"#,
r#"		n=len(other)"#,
r#"	}"#,
r#"	for i:=0;i<n;i++ {"#,
r#"		dst[i]^=other[i]"#,
r#"	}"#,
r#"	return"#,
r#"}"#]

def XorEq : Decl :=
  .func 0 false 0 (n! "XorEq") (.cons (n! "dst") (.slice (.name (n! "byte"))) (.cons (n! "other") (.slice (.name (n! "byte"))) .nil)) (.cons (n! "n") (.name (n! "int")) .nil) (.cons
    (.assign (.cons (.id (n! "n")) .nil) (.cons (.call (.id (n! "len")) (.cons (.id (n! "dst")) .nil) false) .nil)) (.cons
    (.ifs .skip (.bin .lt (.call (.id (n! "len")) (.cons (.id (n! "other")) .nil) false) (.id (n! "n"))) (.cons
      (.assign (.cons (.id (n! "n")) .nil) (.cons (.call (.id (n! "len")) (.cons (.id (n! "other")) .nil) false) .nil)) .nil) .nil) (.cons
    (.for (.define [n! "i"] (.cons (.int 0) .nil)) (.bin .lt (.id (n! "i")) (.id (n! "n"))) (.opAssign .add (.id (n! "i")) (.int 1)) (.cons
      (.opAssign .xor (.idx (.id (n! "dst")) (.id (n! "i"))) (.idx (.id (n! "other")) (.id (n! "i")))) .nil)) (.cons
    (.ret .nil) .nil))))

/-- The syntax tree. -/
def file : File := ⟨n! "bytes", [], [
  XorEq]⟩

/-- The parser finds this tree in the text. -/
theorem parsed : parse src = some file := by kernel_rfl

end Source.BytesXor
