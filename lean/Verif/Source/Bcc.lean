import Verif.Lang.Parser

/-!
# Source of checksum/bcc/bcc.go

The text of the file, line by line without line ends, and its syntax tree as found by the parser. Generated by `tools/source.py`.
-/
namespace Source.Bcc
open GoLang

/-- The text. -/
def src : List String := [
r#"// Copyright 2022 gnabgib"#,
r#"// This Source Code Form is subject to the terms of the Mozilla Public License v2.0"#,
r#""#,
r#"package bcc"#,
r#""#,
r#"//[Block check character](https://en.wikipedia.org/wiki/Block_check_character)"#,
r#""#,
r#"import "github.com/gnabgib/gnablib-go/checksum""#,
r#""#,
r#"type digest uint8"#,
r#""#,
r#"func New() checksum.Hash8 {"#,
r#"	d:=new(digest)"#,
r#"	d.Reset()"#,
r#"	return d"#,
r#"}"#,
r#""#,
r#"func (d *digest) update(p []byte) {"#,
r#"	dig:=byte(*d)"#,
r#"	for i:=0;i<len(p);i++ {"#,
r#"		dig^=p[i]"#,
r#"	}"#,
r#"	*d=digest(dig)"#,
r#"}"#,
r#""#,
r#"func (d *digest) Write(p []byte) (n int, err error) {"#,
r#"	d.update(p)"#,
r#"	return len(p), nil"#,
r#"}"#,
r#""#,
r#"func (d *digest) Sum(in []byte) []byte {"#,
r#"	s := byte(*d)"#,
r#"	return append(in,s)"#,
r#"}"#,
r#""#,
r#""#,
r#"func(d *digest) Reset() {"#,
r#"	*d=0"#,
r#"}"#,
r#""#,
r#"func (d *digest) Size() int {"#,
r#"	return 1"#,
r#"}"#,
r#""#,
r#"func (d *digest) BlockSize() int { return 1 }"#,
r#""#,
r#"func (d *digest) Sum8() uint8 { return byte(*d) }"#]

def New : Decl :=
  .func 0 false 0 (n! "New") .nil (.cons 0 (.qual (n! "checksum") (n! "Hash8")) .nil) (.cons
    (.define [n! "d"] (.cons (.call (.id (n! "new")) (.cons (.id (n! "digest")) .nil) false) .nil)) (.cons
    (.expr (.call (.sel (.id (n! "d")) (n! "Reset")) .nil false)) (.cons
    (.ret (.cons (.id (n! "d")) .nil)) .nil)))

def digest_update : Decl :=
  .func (n! "d") true (n! "digest") (n! "update") (.cons (n! "p") (.slice (.name (n! "byte"))) .nil) .nil (.cons
    (.define [n! "dig"] (.cons (.call (.id (n! "byte")) (.cons (.un .deref (.id (n! "d"))) .nil) false) .nil)) (.cons
    (.for (.define [n! "i"] (.cons (.int 0) .nil)) (.bin .lt (.id (n! "i")) (.call (.id (n! "len")) (.cons (.id (n! "p")) .nil) false)) (.opAssign .add (.id (n! "i")) (.int 1)) (.cons
      (.opAssign .xor (.id (n! "dig")) (.idx (.id (n! "p")) (.id (n! "i")))) .nil)) (.cons
    (.assign (.cons (.un .deref (.id (n! "d"))) .nil) (.cons (.call (.id (n! "digest")) (.cons (.id (n! "dig")) .nil) false) .nil)) .nil)))

def digest_Write : Decl :=
  .func (n! "d") true (n! "digest") (n! "Write") (.cons (n! "p") (.slice (.name (n! "byte"))) .nil) (.cons (n! "n") (.name (n! "int")) (.cons (n! "err") (.name (n! "error")) .nil)) (.cons
    (.expr (.call (.sel (.id (n! "d")) (n! "update")) (.cons (.id (n! "p")) .nil) false)) (.cons
    (.ret (.cons (.call (.id (n! "len")) (.cons (.id (n! "p")) .nil) false) (.cons (.id (n! "nil")) .nil))) .nil))

def digest_Sum : Decl :=
  .func (n! "d") true (n! "digest") (n! "Sum") (.cons (n! "in") (.slice (.name (n! "byte"))) .nil) (.cons 0 (.slice (.name (n! "byte"))) .nil) (.cons
    (.define [n! "s"] (.cons (.call (.id (n! "byte")) (.cons (.un .deref (.id (n! "d"))) .nil) false) .nil)) (.cons
    (.ret (.cons (.call (.id (n! "append")) (.cons (.id (n! "in")) (.cons (.id (n! "s")) .nil)) false) .nil)) .nil))

def digest_Reset : Decl :=
  .func (n! "d") true (n! "digest") (n! "Reset") .nil .nil (.cons
    (.assign (.cons (.un .deref (.id (n! "d"))) .nil) (.cons (.int 0) .nil)) .nil)

def digest_Size : Decl :=
  .func (n! "d") true (n! "digest") (n! "Size") .nil (.cons 0 (.name (n! "int")) .nil) (.cons
    (.ret (.cons (.int 1) .nil)) .nil)

def digest_BlockSize : Decl :=
  .func (n! "d") true (n! "digest") (n! "BlockSize") .nil (.cons 0 (.name (n! "int")) .nil) (.cons
    (.ret (.cons (.int 1) .nil)) .nil)

def digest_Sum8 : Decl :=
  .func (n! "d") true (n! "digest") (n! "Sum8") .nil (.cons 0 (.name (n! "uint8")) .nil) (.cons
    (.ret (.cons (.call (.id (n! "byte")) (.cons (.un .deref (.id (n! "d"))) .nil) false) .nil)) .nil)

/-- The syntax tree. -/
def file : File := ⟨n! "bcc", [[103, 105, 116, 104, 117, 98, 46, 99, 111, 109, 47, 103, 110, 97, 98, 103, 105, 98, 47, 103, 110, 97, 98, 108, 105, 98, 45, 103, 111, 47, 99, 104, 101, 99, 107, 115, 117, 109]], [
  (.type (n! "digest") (.name (n! "uint8"))),
  New,
  digest_update,
  digest_Write,
  digest_Sum,
  digest_Reset,
  digest_Size,
  digest_BlockSize,
  digest_Sum8]⟩

/-- The parser finds this tree in the text. -/
theorem parsed : parse src = some file := by kernel_rfl

end Source.Bcc
