import Verif.Lang.Parser

/-!
# Source of checksum/luhn/luhn.go

The text of the file, line by line without line ends, and its syntax tree as found by the parser. Generated by `tools/source.py`.
-/
namespace Source.Luhn
open GoLang

/-- The text. -/
def src : List String := [
r#"// Copyright 2022 gnabgib"#,
r#"// This Source Code Form is subject to the terms of the Mozilla Public License v2.0"#,
r#""#,
r#"package luhn"#,
r#""#,
r#"// https://www.dcode.fr/luhn-algorithm"#,
r#""#,
r#""#,
r#"// Generate a single digit (0-9) checksum for the given number"#,
r#"func Checksum(i uint64) uint8 {"#,
r#"	var ret= uint64(0)"#,
r#"	var mul= uint64(2)"#,
r#"	for i>0 {"#,
r#"		v := i%10"#,
r#"		i=(i-v)/10"#,
r#"		v*=mul"#,
r#"        ret+=(v%10)+(v/10)"#,
r#"        mul=1+mul%2"#,
r#"	}"#,
r#"	return uint8((10-ret%10)%10)"#,
r#"}"#]

def Checksum : Decl :=
  .func 0 false 0 (n! "Checksum") (.cons (n! "i") (.name (n! "uint64")) .nil) (.cons 0 (.name (n! "uint8")) .nil) (.cons
    (.var [n! "ret"] .none (.cons (.call (.id (n! "uint64")) (.cons (.int 0) .nil) false) .nil)) (.cons
    (.var [n! "mul"] .none (.cons (.call (.id (n! "uint64")) (.cons (.int 2) .nil) false) .nil)) (.cons
    (.for .skip (.bin .gt (.id (n! "i")) (.int 0)) .skip (.cons
      (.define [n! "v"] (.cons (.bin .rem (.id (n! "i")) (.int 10)) .nil)) (.cons
      (.assign (.cons (.id (n! "i")) .nil) (.cons (.bin .div (.bin .sub (.id (n! "i")) (.id (n! "v"))) (.int 10)) .nil)) (.cons
      (.opAssign .mul (.id (n! "v")) (.id (n! "mul"))) (.cons
      (.opAssign .add (.id (n! "ret")) (.bin .add (.bin .rem (.id (n! "v")) (.int 10)) (.bin .div (.id (n! "v")) (.int 10)))) (.cons
      (.assign (.cons (.id (n! "mul")) .nil) (.cons (.bin .add (.int 1) (.bin .rem (.id (n! "mul")) (.int 2))) .nil)) .nil)))))) (.cons
    (.ret (.cons (.call (.id (n! "uint8")) (.cons (.bin .rem (.bin .sub (.int 10) (.bin .rem (.id (n! "ret")) (.int 10))) (.int 10)) .nil) false) .nil)) .nil))))

/-- The syntax tree. -/
def file : File := ⟨n! "luhn", [], [
  Checksum]⟩

/-- The parser finds this tree in the text. -/
theorem parsed : parse src = some file := by kernel_rfl

end Source.Luhn
