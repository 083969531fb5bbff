import Verif.Lang.Parser

/-!
# Source of test/Abbr.go

The text of the file, line by line without line ends, and its syntax tree as found by the parser. Generated by `tools/source.py`.
-/
namespace Source.TestAbbr
open GoLang

/-- The text. -/
def src : List String := [
r#"// Copyright 2022 gnabgib"#,
r#"// This Source Code Form is subject to the terms of the Mozilla Public License v2.0"#,
r#""#,
r#"package test"#,
r#""#,
r#"//Abbreviate a string if there's more than 20 characters"#,
r#"func Abbr(s string) string {"#,
r#"	n := len(s)"#,
r#"	if n > 20 {"#,
r#"		return s[0:19] + "…""#,
r#"	}"#,
r#"	return s"#,
r#"}"#,
r#""#,
r#""#]

def Abbr : Decl :=
  .func 0 false 0 (n! "Abbr") (.cons (n! "s") (.name (n! "string")) .nil) (.cons 0 (.name (n! "string")) .nil) (.cons
    (.define [n! "n"] (.cons (.call (.id (n! "len")) (.cons (.id (n! "s")) .nil) false) .nil)) (.cons
    (.ifs .skip (.bin .gt (.id (n! "n")) (.int 20)) (.cons
      (.ret (.cons (.bin .add (.slc (.id (n! "s")) (.int 0) (.int 19)) (.str [226, 128, 166])) .nil)) .nil) .nil) (.cons
    (.ret (.cons (.id (n! "s")) .nil)) .nil)))

/-- The syntax tree. -/
def file : File := ⟨n! "test", [], [
  Abbr]⟩

/-- The parser finds this tree in the text. -/
theorem parsed : parse src = some file := by kernel_rfl

end Source.TestAbbr
