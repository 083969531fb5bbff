import Verif.Lang.Parser

/-!
# Source of bytes/pad.go

The text of the file, line by line without line ends, and its syntax tree as found by the parser. Generated by `tools/source.py`.
-/
namespace Source.BytesPad
open GoLang

/-- The text. -/
def src : List String := [
r#"// Copyright 2023 gnabgib"#,
r#"// This Source Code Form is subject to the terms of the Mozilla Public License v2.0"#,
r#""#,
r#"package bytes"#,
r#""#,
r#"import "errors""#,
r#""#,
r#"// Pad 0-n bytes input in to n bytes (zero end), if len(in)>n only n bytes will be used."#,
r#"// Always returns a copy"#,
r#"func padLE(dst,src []byte, n int) error {"#,
r#"	//Todo optimize with arch specific commands to speed up (AVX2)"#,
r#"	if len(dst)<n {"#,
r#"		return errors.New("not enough space")"#,
r#"	}"#,
r#"	sn:=n"#,
r#"	if len(src)<sn {"#,
r#"		sn=len(src)"#,
r#"	}"#,
r#"	//When src/dst are pointing to the same memory"#,
r#"	if sn>0 && &dst[0]==&src[0] {"#,
r#"		return nil"#,
r#"	}"#,
r#"	copy(dst,src[:sn])"#,
r#"	//Zero any remaining space"#,
r#"	if sn<n {"#,
r#"		Zero(dst[sn:n])"#,
r#"	}"#,
r#"	return nil"#,
r#"}"#,
r#""#,
r#"// Pad 0-n bytes input in to n bytes (zero start), if len(in)>n only n bytes will be used"#,
r#"// Always returns a copy"#,
r#"func padBE(dst,src []byte, n int) error {"#,
r#"	if len(dst)<n {"#,
r#"		return errors.New("not enough space")"#,
r#"	}"#,
r#"	sn:=n"#,
r#"	if len(src)<sn {"#,
r#"		sn=len(src)"#,
r#"	}"#,
r#"	//Zero starting space"#,
r#"	if sn<n {"#,
r#"		Zero(dst[0:n-sn])"#,
r#"	}"#,
r#"	copy(dst[n-sn:],src)"#,
r#"	return nil"#,
r#"}"#,
r#""#]

def padLE : Decl :=
  .func 0 false 0 (n! "padLE") (.cons (n! "dst") (.slice (.name (n! "byte"))) (.cons (n! "src") (.slice (.name (n! "byte"))) (.cons (n! "n") (.name (n! "int")) .nil))) (.cons 0 (.name (n! "error")) .nil) (.cons
    (.ifs .skip (.bin .lt (.call (.id (n! "len")) (.cons (.id (n! "dst")) .nil) false) (.id (n! "n"))) (.cons
      (.ret (.cons (.call (.sel (.id (n! "errors")) (n! "New")) (.cons (.str [110, 111, 116, 32, 101, 110, 111, 117, 103, 104, 32, 115, 112, 97, 99, 101]) .nil) false) .nil)) .nil) .nil) (.cons
    (.define [n! "sn"] (.cons (.id (n! "n")) .nil)) (.cons
    (.ifs .skip (.bin .lt (.call (.id (n! "len")) (.cons (.id (n! "src")) .nil) false) (.id (n! "sn"))) (.cons
      (.assign (.cons (.id (n! "sn")) .nil) (.cons (.call (.id (n! "len")) (.cons (.id (n! "src")) .nil) false) .nil)) .nil) .nil) (.cons
    (.ifs .skip (.bin .land (.bin .gt (.id (n! "sn")) (.int 0)) (.bin .eq (.un .addr (.idx (.id (n! "dst")) (.int 0))) (.un .addr (.idx (.id (n! "src")) (.int 0))))) (.cons
      (.ret (.cons (.id (n! "nil")) .nil)) .nil) .nil) (.cons
    (.expr (.call (.id (n! "copy")) (.cons (.id (n! "dst")) (.cons (.slc (.id (n! "src")) .none (.id (n! "sn"))) .nil)) false)) (.cons
    (.ifs .skip (.bin .lt (.id (n! "sn")) (.id (n! "n"))) (.cons
      (.expr (.call (.id (n! "Zero")) (.cons (.slc (.id (n! "dst")) (.id (n! "sn")) (.id (n! "n"))) .nil) false)) .nil) .nil) (.cons
    (.ret (.cons (.id (n! "nil")) .nil)) .nil)))))))

def padBE : Decl :=
  .func 0 false 0 (n! "padBE") (.cons (n! "dst") (.slice (.name (n! "byte"))) (.cons (n! "src") (.slice (.name (n! "byte"))) (.cons (n! "n") (.name (n! "int")) .nil))) (.cons 0 (.name (n! "error")) .nil) (.cons
    (.ifs .skip (.bin .lt (.call (.id (n! "len")) (.cons (.id (n! "dst")) .nil) false) (.id (n! "n"))) (.cons
      (.ret (.cons (.call (.sel (.id (n! "errors")) (n! "New")) (.cons (.str [110, 111, 116, 32, 101, 110, 111, 117, 103, 104, 32, 115, 112, 97, 99, 101]) .nil) false) .nil)) .nil) .nil) (.cons
    (.define [n! "sn"] (.cons (.id (n! "n")) .nil)) (.cons
    (.ifs .skip (.bin .lt (.call (.id (n! "len")) (.cons (.id (n! "src")) .nil) false) (.id (n! "sn"))) (.cons
      (.assign (.cons (.id (n! "sn")) .nil) (.cons (.call (.id (n! "len")) (.cons (.id (n! "src")) .nil) false) .nil)) .nil) .nil) (.cons
    (.ifs .skip (.bin .lt (.id (n! "sn")) (.id (n! "n"))) (.cons
      (.expr (.call (.id (n! "Zero")) (.cons (.slc (.id (n! "dst")) (.int 0) (.bin .sub (.id (n! "n")) (.id (n! "sn")))) .nil) false)) .nil) .nil) (.cons
    (.expr (.call (.id (n! "copy")) (.cons (.slc (.id (n! "dst")) (.bin .sub (.id (n! "n")) (.id (n! "sn"))) .none) (.cons (.id (n! "src")) .nil)) false)) (.cons
    (.ret (.cons (.id (n! "nil")) .nil)) .nil))))))

/-- The syntax tree. -/
def file : File := ⟨n! "bytes", [[101, 114, 114, 111, 114, 115]], [
  padLE,
  padBE]⟩

/-- The parser finds this tree in the text. -/
theorem parsed : parse src = some file := by kernel_rfl

end Source.BytesPad
