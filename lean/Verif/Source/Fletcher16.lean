import Verif.Lang.Parser

/-!
# Source of checksum/fletcher/fletcher16.go

The text of the file, line by line without line ends, and its syntax tree as found by the parser. Generated by `tools/source.py`.
-/
namespace Source.Fletcher16
open GoLang

/-- The text. -/
def src : List String := [
r#"// Copyright 2022 gnabgib"#,
r#"// This Source Code Form is subject to the terms of the Mozilla Public License v2.0"#,
r#""#,
r#"package fletcher"#,
r#""#,
r#"//http://www.zlib.net/maxino06_fletcher-adler.pdf -> Lower cpu and Adler and mostly more effective (in their tests)"#,
r#"//https://datatracker.ietf.org/doc/html/rfc1146 (Appendix I)"#,
r#""#,
r#"import ("#,
r#"	"github.com/gnabgib/gnablib-go/checksum""#,
r#")"#,
r#""#,
r#"const size16=2"#,
r#""#,
r#"// Fletcher 16 -- --"#,
r#"type digest16 struct {"#,
r#"	a, b uint8"#,
r#"}"#,
r#""#,
r#"// A new Hash16 for computing the Fletcher 16 checksum"#,
r#"func New16() checksum.Hash16 {"#,
r#"	d := new(digest16)"#,
r#"	d.Reset()"#,
r#"	return d"#,
r#"}"#,
r#""#,
r#"func (d *digest16) update(p []byte) {"#,
r#"	//Using the Anastase Nakassis optimization"#,
r#"	//c1 overflow solve to 5802 (from eq: n > 0 and n * (n+1) / 2 * (2^8-1) < (2^32-1))"#,
r#"	const mod = 0xff"#,
r#"	const c1Overflow = 5803"#,
r#"	var c0, c1 uint32"#,
r#"	c0 = uint32((*d).a)"#,
r#"	c1 = uint32((*d).b)"#,
r#""#,
r#"	for i := 0; i < len(p); {"#,
r#"		len := len(p)"#,
r#"		if len > c1Overflow {"#,
r#"			len = c1Overflow"#,
r#"		}"#,
r#"		for j := 0; j < len; j++ {"#,
r#"			//We only use j for the batch-count (incrementing i each loop)"#,
r#"			c0 += uint32(p[i])"#,
r#"			c1 += c0"#,
r#"			i++"#,
r#"		}"#,
r#"		c0 %= mod"#,
r#"		c1 %= mod"#,
r#"	}"#,
r#"	(*d).a = byte(c0)"#,
r#"	(*d).b = byte(c1)"#,
r#"}"#,
r#""#,
r#"func (d *digest16) Write(p []byte) (n int, err error) {"#,
r#"	d.update(p)"#,
r#"	return len(p), nil"#,
r#"}"#,
r#""#,
r#"func (d *digest16) Sum(in []byte) []byte {"#,
r#"	return append(in, (*d).b, (*d).a)"#,
r#"}"#,
r#""#,
r#"func (d *digest16) Reset() {"#,
r#"	(*d).a = 0"#,
r#"	(*d).b = 0"#,
r#"}"#,
r#""#,
r#"func (d *digest16) Size() int { return size16 }"#,
r#""#,
r#"func (d *digest16) BlockSize() int { return size16/2 }"#,
r#""#,
r#"func (d *digest16) Sum16() uint16 { return uint16((*d).b)<<8 | uint16((*d).a) }"#]

def New16 : Decl :=
  .func 0 false 0 (n! "New16") .nil (.cons 0 (.qual (n! "checksum") (n! "Hash16")) .nil) (.cons
    (.define [n! "d"] (.cons (.call (.id (n! "new")) (.cons (.id (n! "digest16")) .nil) false) .nil)) (.cons
    (.expr (.call (.sel (.id (n! "d")) (n! "Reset")) .nil false)) (.cons
    (.ret (.cons (.id (n! "d")) .nil)) .nil)))

def digest16_update : Decl :=
  .func (n! "d") true (n! "digest16") (n! "update") (.cons (n! "p") (.slice (.name (n! "byte"))) .nil) .nil (.cons
    (.const (n! "mod") (.int 255)) (.cons
    (.const (n! "c1Overflow") (.int 5803)) (.cons
    (.var [n! "c0", n! "c1"] (.name (n! "uint32")) .nil) (.cons
    (.assign (.cons (.id (n! "c0")) .nil) (.cons (.call (.id (n! "uint32")) (.cons (.sel (.un .deref (.id (n! "d"))) (n! "a")) .nil) false) .nil)) (.cons
    (.assign (.cons (.id (n! "c1")) .nil) (.cons (.call (.id (n! "uint32")) (.cons (.sel (.un .deref (.id (n! "d"))) (n! "b")) .nil) false) .nil)) (.cons
    (.for (.define [n! "i"] (.cons (.int 0) .nil)) (.bin .lt (.id (n! "i")) (.call (.id (n! "len")) (.cons (.id (n! "p")) .nil) false)) .skip (.cons
      (.define [n! "len"] (.cons (.call (.id (n! "len")) (.cons (.id (n! "p")) .nil) false) .nil)) (.cons
      (.ifs .skip (.bin .gt (.id (n! "len")) (.id (n! "c1Overflow"))) (.cons
        (.assign (.cons (.id (n! "len")) .nil) (.cons (.id (n! "c1Overflow")) .nil)) .nil) .nil) (.cons
      (.for (.define [n! "j"] (.cons (.int 0) .nil)) (.bin .lt (.id (n! "j")) (.id (n! "len"))) (.opAssign .add (.id (n! "j")) (.int 1)) (.cons
        (.opAssign .add (.id (n! "c0")) (.call (.id (n! "uint32")) (.cons (.idx (.id (n! "p")) (.id (n! "i"))) .nil) false)) (.cons
        (.opAssign .add (.id (n! "c1")) (.id (n! "c0"))) (.cons
        (.opAssign .add (.id (n! "i")) (.int 1)) .nil)))) (.cons
      (.opAssign .rem (.id (n! "c0")) (.id (n! "mod"))) (.cons
      (.opAssign .rem (.id (n! "c1")) (.id (n! "mod"))) .nil)))))) (.cons
    (.assign (.cons (.sel (.un .deref (.id (n! "d"))) (n! "a")) .nil) (.cons (.call (.id (n! "byte")) (.cons (.id (n! "c0")) .nil) false) .nil)) (.cons
    (.assign (.cons (.sel (.un .deref (.id (n! "d"))) (n! "b")) .nil) (.cons (.call (.id (n! "byte")) (.cons (.id (n! "c1")) .nil) false) .nil)) .nil))))))))

def digest16_Write : Decl :=
  .func (n! "d") true (n! "digest16") (n! "Write") (.cons (n! "p") (.slice (.name (n! "byte"))) .nil) (.cons (n! "n") (.name (n! "int")) (.cons (n! "err") (.name (n! "error")) .nil)) (.cons
    (.expr (.call (.sel (.id (n! "d")) (n! "update")) (.cons (.id (n! "p")) .nil) false)) (.cons
    (.ret (.cons (.call (.id (n! "len")) (.cons (.id (n! "p")) .nil) false) (.cons (.id (n! "nil")) .nil))) .nil))

def digest16_Sum : Decl :=
  .func (n! "d") true (n! "digest16") (n! "Sum") (.cons (n! "in") (.slice (.name (n! "byte"))) .nil) (.cons 0 (.slice (.name (n! "byte"))) .nil) (.cons
    (.ret (.cons (.call (.id (n! "append")) (.cons (.id (n! "in")) (.cons (.sel (.un .deref (.id (n! "d"))) (n! "b")) (.cons (.sel (.un .deref (.id (n! "d"))) (n! "a")) .nil))) false) .nil)) .nil)

def digest16_Reset : Decl :=
  .func (n! "d") true (n! "digest16") (n! "Reset") .nil .nil (.cons
    (.assign (.cons (.sel (.un .deref (.id (n! "d"))) (n! "a")) .nil) (.cons (.int 0) .nil)) (.cons
    (.assign (.cons (.sel (.un .deref (.id (n! "d"))) (n! "b")) .nil) (.cons (.int 0) .nil)) .nil))

def digest16_Size : Decl :=
  .func (n! "d") true (n! "digest16") (n! "Size") .nil (.cons 0 (.name (n! "int")) .nil) (.cons
    (.ret (.cons (.id (n! "size16")) .nil)) .nil)

def digest16_BlockSize : Decl :=
  .func (n! "d") true (n! "digest16") (n! "BlockSize") .nil (.cons 0 (.name (n! "int")) .nil) (.cons
    (.ret (.cons (.bin .div (.id (n! "size16")) (.int 2)) .nil)) .nil)

def digest16_Sum16 : Decl :=
  .func (n! "d") true (n! "digest16") (n! "Sum16") .nil (.cons 0 (.name (n! "uint16")) .nil) (.cons
    (.ret (.cons (.bin .or (.bin .shl (.call (.id (n! "uint16")) (.cons (.sel (.un .deref (.id (n! "d"))) (n! "b")) .nil) false) (.int 8)) (.call (.id (n! "uint16")) (.cons (.sel (.un .deref (.id (n! "d"))) (n! "a")) .nil) false)) .nil)) .nil)

/-- The syntax tree. -/
def file : File := ⟨n! "fletcher", [[103, 105, 116, 104, 117, 98, 46, 99, 111, 109, 47, 103, 110, 97, 98, 103, 105, 98, 47, 103, 110, 97, 98, 108, 105, 98, 45, 103, 111, 47, 99, 104, 101, 99, 107, 115, 117, 109]], [
  (.const (n! "size16") (.int 2)),
  (.type (n! "digest16") (.struct (.cons (n! "a") (.name (n! "uint8")) (.cons (n! "b") (.name (n! "uint8")) .nil)))),
  New16,
  digest16_update,
  digest16_Write,
  digest16_Sum,
  digest16_Reset,
  digest16_Size,
  digest16_BlockSize,
  digest16_Sum16]⟩

/-- The parser finds this tree in the text. -/
theorem parsed : parse src = some file := by kernel_rfl

end Source.Fletcher16
