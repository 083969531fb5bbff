import Verif.Lang.Parser

/-!
# Source of codegen/BytesToString.go

The text of the file, line by line without line ends, and its syntax tree as found by the parser. Generated by `tools/source.py`.
-/
namespace Source.CodegenString
open GoLang

/-- The text. -/
def src : List String := [
r#"// Copyright 2022 gnabgib"#,
r#"// This Source Code Form is subject to the terms of the Mozilla Public License v2.0"#,
r#""#,
r#"package codegen"#,
r#""#,
r#"import ("#,
r#"	"github.com/gnabgib/gnablib-go/encoding/hex""#,
r#")"#,
r#""#,
r#"// Generate a (likely invalid UTF8) string holding bytes, which can be used as a constant in golang"#,
r#"func BytesToString(in []byte) string {"#,
r#"	h := []byte(hex.FromBytes(in))"#,
r#"	n := len(h)"#,
r#"	//For each pair of characters we need a "\x" prefix.. so 4 characters per"#,
r#"	// hex pair (that is unless we switch to ASCII for 32-126)"#,
r#"	ret := make([]byte, n*2+2)"#,
r#"	ret[0] = '"'"#,
r#"	ptr := 1"#,
r#"	for i, b := range h {"#,
r#"		if i&1 == 0 {"#,
r#"			ret[ptr] = '\\'"#,
r#"			ret[ptr+1] = 'x'"#,
r#"			ptr += 2"#,
r#"		}"#,
r#"		ret[ptr] = b"#,
r#"		ptr += 1"#,
r#"	}"#,
r#"	ret[ptr] = '"'"#,
r#"	return string(ret)"#,
r#"}"#,
r#""#,
r#"// Generate a (likely invalid UTF8) string holding bytes, which can be used as a constant"#,
r#"// in golang.  bytesPerSection should be >1 and indicate how many bytes to include before"#,
r#"// adding a break.  There are 4 characters per byte ("\x" plus two hex)."#,
r#"func BytesToStringSep(in []byte, bytesPerSection int) string {"#,
r#"	if bytesPerSection < 1 {"#,
r#"		panic("bytesPerSection must be >=1")"#,
r#"	}"#,
r#""#,
r#"	h := []byte(hex.FromBytes(in))"#,
r#"	n := len(h)"#,
r#"	//For each pair of characters we need a "\x" prefix.. so 4 characters per"#,
r#"	// hex pair (that is unless we switch to ASCII for 32-126)"#,
r#"	retLen := n * 2"#,
r#"	hexPerSection := bytesPerSection * 2"#,
r#"	//For each break we need 3 characters "\"+\"" (we don't include new lines and whitespace)"#,
r#"	retLen += 3 * ((n / hexPerSection) - 1)"#,
r#"	//And finally we need the starting and ending quote"#,
r#"	retLen += 2"#,
r#""#,
r#"	ret := make([]byte, retLen)"#,
r#"	ret[0] = '"'"#,
r#"	ptr := 1"#,
r#"	for i, b := range h {"#,
r#"		if i&1 == 0 {"#,
r#"			if i%hexPerSection == 0 && ptr > 1 {"#,
r#"				ret[ptr] = '"'"#,
r#"				ret[ptr+1] = '+'"#,
r#"				ret[ptr+2] = '"'"#,
r#"				ptr += 3"#,
r#"			}"#,
r#"			ret[ptr] = '\\'"#,
r#"			ret[ptr+1] = 'x'"#,
r#"			ptr += 2"#,
r#"		}"#,
r#"		ret[ptr] = b"#,
r#"		ptr += 1"#,
r#"	}"#,
r#"	ret[ptr] = '"'"#,
r#"	return string(ret)"#,
r#"}"#,
r#""#]

def BytesToString : Decl :=
  .func 0 false 0 (n! "BytesToString") (.cons (n! "in") (.slice (.name (n! "byte"))) .nil) (.cons 0 (.name (n! "string")) .nil) (.cons
    (.define [n! "h"] (.cons (.call (.ty (.slice (.name (n! "byte")))) (.cons (.call (.sel (.id (n! "hex")) (n! "FromBytes")) (.cons (.id (n! "in")) .nil) false) .nil) false) .nil)) (.cons
    (.define [n! "n"] (.cons (.call (.id (n! "len")) (.cons (.id (n! "h")) .nil) false) .nil)) (.cons
    (.define [n! "ret"] (.cons (.call (.id (n! "make")) (.cons (.ty (.slice (.name (n! "byte")))) (.cons (.bin .add (.bin .mul (.id (n! "n")) (.int 2)) (.int 2)) .nil)) false) .nil)) (.cons
    (.assign (.cons (.idx (.id (n! "ret")) (.int 0)) .nil) (.cons (.int 34) .nil)) (.cons
    (.define [n! "ptr"] (.cons (.int 1) .nil)) (.cons
    (.range (n! "i") (n! "b") (.id (n! "h")) (.cons
      (.ifs .skip (.bin .eq (.bin .and (.id (n! "i")) (.int 1)) (.int 0)) (.cons
        (.assign (.cons (.idx (.id (n! "ret")) (.id (n! "ptr"))) .nil) (.cons (.int 92) .nil)) (.cons
        (.assign (.cons (.idx (.id (n! "ret")) (.bin .add (.id (n! "ptr")) (.int 1))) .nil) (.cons (.int 120) .nil)) (.cons
        (.opAssign .add (.id (n! "ptr")) (.int 2)) .nil))) .nil) (.cons
      (.assign (.cons (.idx (.id (n! "ret")) (.id (n! "ptr"))) .nil) (.cons (.id (n! "b")) .nil)) (.cons
      (.opAssign .add (.id (n! "ptr")) (.int 1)) .nil)))) (.cons
    (.assign (.cons (.idx (.id (n! "ret")) (.id (n! "ptr"))) .nil) (.cons (.int 34) .nil)) (.cons
    (.ret (.cons (.call (.id (n! "string")) (.cons (.id (n! "ret")) .nil) false) .nil)) .nil))))))))

def BytesToStringSep : Decl :=
  .func 0 false 0 (n! "BytesToStringSep") (.cons (n! "in") (.slice (.name (n! "byte"))) (.cons (n! "bytesPerSection") (.name (n! "int")) .nil)) (.cons 0 (.name (n! "string")) .nil) (.cons
    (.ifs .skip (.bin .lt (.id (n! "bytesPerSection")) (.int 1)) (.cons
      (.expr (.call (.id (n! "panic")) (.cons (.str [98, 121, 116, 101, 115, 80, 101, 114, 83, 101, 99, 116, 105, 111, 110, 32, 109, 117, 115, 116, 32, 98, 101, 32, 62, 61, 49]) .nil) false)) .nil) .nil) (.cons
    (.define [n! "h"] (.cons (.call (.ty (.slice (.name (n! "byte")))) (.cons (.call (.sel (.id (n! "hex")) (n! "FromBytes")) (.cons (.id (n! "in")) .nil) false) .nil) false) .nil)) (.cons
    (.define [n! "n"] (.cons (.call (.id (n! "len")) (.cons (.id (n! "h")) .nil) false) .nil)) (.cons
    (.define [n! "retLen"] (.cons (.bin .mul (.id (n! "n")) (.int 2)) .nil)) (.cons
    (.define [n! "hexPerSection"] (.cons (.bin .mul (.id (n! "bytesPerSection")) (.int 2)) .nil)) (.cons
    (.opAssign .add (.id (n! "retLen")) (.bin .mul (.int 3) (.bin .sub (.bin .div (.id (n! "n")) (.id (n! "hexPerSection"))) (.int 1)))) (.cons
    (.opAssign .add (.id (n! "retLen")) (.int 2)) (.cons
    (.define [n! "ret"] (.cons (.call (.id (n! "make")) (.cons (.ty (.slice (.name (n! "byte")))) (.cons (.id (n! "retLen")) .nil)) false) .nil)) (.cons
    (.assign (.cons (.idx (.id (n! "ret")) (.int 0)) .nil) (.cons (.int 34) .nil)) (.cons
    (.define [n! "ptr"] (.cons (.int 1) .nil)) (.cons
    (.range (n! "i") (n! "b") (.id (n! "h")) (.cons
      (.ifs .skip (.bin .eq (.bin .and (.id (n! "i")) (.int 1)) (.int 0)) (.cons
        (.ifs .skip (.bin .land (.bin .eq (.bin .rem (.id (n! "i")) (.id (n! "hexPerSection"))) (.int 0)) (.bin .gt (.id (n! "ptr")) (.int 1))) (.cons
          (.assign (.cons (.idx (.id (n! "ret")) (.id (n! "ptr"))) .nil) (.cons (.int 34) .nil)) (.cons
          (.assign (.cons (.idx (.id (n! "ret")) (.bin .add (.id (n! "ptr")) (.int 1))) .nil) (.cons (.int 43) .nil)) (.cons
          (.assign (.cons (.idx (.id (n! "ret")) (.bin .add (.id (n! "ptr")) (.int 2))) .nil) (.cons (.int 34) .nil)) (.cons
          (.opAssign .add (.id (n! "ptr")) (.int 3)) .nil)))) .nil) (.cons
        (.assign (.cons (.idx (.id (n! "ret")) (.id (n! "ptr"))) .nil) (.cons (.int 92) .nil)) (.cons
        (.assign (.cons (.idx (.id (n! "ret")) (.bin .add (.id (n! "ptr")) (.int 1))) .nil) (.cons (.int 120) .nil)) (.cons
        (.opAssign .add (.id (n! "ptr")) (.int 2)) .nil)))) .nil) (.cons
      (.assign (.cons (.idx (.id (n! "ret")) (.id (n! "ptr"))) .nil) (.cons (.id (n! "b")) .nil)) (.cons
      (.opAssign .add (.id (n! "ptr")) (.int 1)) .nil)))) (.cons
    (.assign (.cons (.idx (.id (n! "ret")) (.id (n! "ptr"))) .nil) (.cons (.int 34) .nil)) (.cons
    (.ret (.cons (.call (.id (n! "string")) (.cons (.id (n! "ret")) .nil) false) .nil)) .nil)))))))))))))

/-- The syntax tree. -/
def file : File := ⟨n! "codegen", [[103, 105, 116, 104, 117, 98, 46, 99, 111, 109, 47, 103, 110, 97, 98, 103, 105, 98, 47, 103, 110, 97, 98, 108, 105, 98, 45, 103, 111, 47, 101, 110, 99, 111, 100, 105, 110, 103, 47, 104, 101, 120]], [
  BytesToString,
  BytesToStringSep]⟩

/-- The parser finds this tree in the text. -/
theorem parsed : parse src = some file := by kernel_rfl

end Source.CodegenString
