import Verif.Lang.Parser

/-!
# Source of checksum/fletcher/fletcher64.go

The text of the file, line by line without line ends, and its syntax tree as found by the parser. Generated by `tools/source.py`.
-/
namespace Source.Fletcher64
open GoLang

/-- The text. -/
def src : List String := [
r#"// Copyright 2022 gnabgib"#,
r#"// This Source Code Form is subject to the terms of the Mozilla Public License v2.0"#,
r#""#,
r#"package fletcher"#,
r#""#,
r#"//http://www.zlib.net/maxino06_fletcher-adler.pdf -> Lower cpu and Adler and mostly more effective (in their tests)"#,
r#"//https://datatracker.ietf.org/doc/html/rfc1146 (Appendix I)"#,
r#""#,
r#"import ("#,
r#"	"hash""#,
r#")"#,
r#""#,
r#"const size64 = 8"#,
r#""#,
r#"type digest64 struct {"#,
r#"	a, b uint32"#,
r#"}"#,
r#""#,
r#"// A new Hash64 for computing the Fletcher 64 checksum"#,
r#"func New64() hash.Hash64 {"#,
r#"	d := new(digest64)"#,
r#"	d.Reset()"#,
r#"	return d"#,
r#"}"#,
r#""#,
r#"func (d *digest64) update(p []byte) {"#,
r#"	//Using the Anastase Nakassis optimization, requires 64bit processor/os"#,
r#"	const mod = 0xffffffff"#,
r#"	const c1Overflow = 92681"#,
r#"	var c0, c1 uint64"#,
r#"	c0 = uint64((*d).a)"#,
r#"	c1 = uint64((*d).b)"#,
r#""#,
r#"	n := len(p)"#,
r#"	for i := 0; i < n; {"#,
r#"		len := n - i"#,
r#"		if len > c1Overflow {"#,
r#"			len = c1Overflow"#,
r#"		}"#,
r#"		for j := 0; j < len; j += 4 {"#,
r#"			//We only use j for the batch-count (incrementing i each loop)"#,
r#""#,
r#"			//Fletcher is little endian"#,
r#"			add := uint64(p[i])"#,
r#"			i++"#,
r#"			if i < n {"#,
r#"				add |= uint64(p[i]) << 8"#,
r#"				i++"#,
r#"				if i < n {"#,
r#"					add |= uint64(p[i]) << 16"#,
r#"					i++"#,
r#"					if i < n {"#,
r#"						add |= uint64(p[i]) << 24"#,
r#"						i++"#,
r#"					}"#,
r#"				}"#,
r#"			}"#,
r#"			c0 += add"#,
r#"			c1 += c0"#,
r#"		}"#,
r#"		c0 %= mod"#,
r#"		c1 %= mod"#,
r#"	}"#,
r#"	(*d).a = uint32(c0)"#,
r#"	(*d).b = uint32(c1)"#,
r#"}"#,
r#""#,
r#"func (d *digest64) Write(p []byte) (n int, err error) {"#,
r#"	d.update(p)"#,
r#"	return len(p), nil"#,
r#"}"#,
r#""#,
r#"func (d *digest64) Sum(in []byte) []byte {"#,
r#"	return append(in, byte((*d).b>>24), byte((*d).b>>16), byte((*d).b>>8), byte((*d).b),"#,
r#"		byte((*d).a>>24), byte((*d).a>>16), byte((*d).a>>8), byte((*d).a))"#,
r#"}"#,
r#""#,
r#"func (d *digest64) Reset() {"#,
r#"	(*d).a = 0"#,
r#"	(*d).b = 0"#,
r#"}"#,
r#""#,
r#"func (d *digest64) Size() int { return size64 }"#,
r#""#,
r#"func (d *digest64) BlockSize() int { return size64 / 2 }"#,
r#""#,
r#"func (d *digest64) Sum64() uint64 { return uint64((*d).b)<<32 | uint64((*d).a) }"#,
r#""#]

def New64 : Decl :=
  .func 0 false 0 (n! "New64") .nil (.cons 0 (.qual (n! "hash") (n! "Hash64")) .nil) (.cons
    (.define [n! "d"] (.cons (.call (.id (n! "new")) (.cons (.id (n! "digest64")) .nil) false) .nil)) (.cons
    (.expr (.call (.sel (.id (n! "d")) (n! "Reset")) .nil false)) (.cons
    (.ret (.cons (.id (n! "d")) .nil)) .nil)))

def digest64_update : Decl :=
  .func (n! "d") true (n! "digest64") (n! "update") (.cons (n! "p") (.slice (.name (n! "byte"))) .nil) .nil (.cons
    (.const (n! "mod") (.int 4294967295)) (.cons
    (.const (n! "c1Overflow") (.int 92681)) (.cons
    (.var [n! "c0", n! "c1"] (.name (n! "uint64")) .nil) (.cons
    (.assign (.cons (.id (n! "c0")) .nil) (.cons (.call (.id (n! "uint64")) (.cons (.sel (.un .deref (.id (n! "d"))) (n! "a")) .nil) false) .nil)) (.cons
    (.assign (.cons (.id (n! "c1")) .nil) (.cons (.call (.id (n! "uint64")) (.cons (.sel (.un .deref (.id (n! "d"))) (n! "b")) .nil) false) .nil)) (.cons
    (.define [n! "n"] (.cons (.call (.id (n! "len")) (.cons (.id (n! "p")) .nil) false) .nil)) (.cons
    (.for (.define [n! "i"] (.cons (.int 0) .nil)) (.bin .lt (.id (n! "i")) (.id (n! "n"))) .skip (.cons
      (.define [n! "len"] (.cons (.bin .sub (.id (n! "n")) (.id (n! "i"))) .nil)) (.cons
      (.ifs .skip (.bin .gt (.id (n! "len")) (.id (n! "c1Overflow"))) (.cons
        (.assign (.cons (.id (n! "len")) .nil) (.cons (.id (n! "c1Overflow")) .nil)) .nil) .nil) (.cons
      (.for (.define [n! "j"] (.cons (.int 0) .nil)) (.bin .lt (.id (n! "j")) (.id (n! "len"))) (.opAssign .add (.id (n! "j")) (.int 4)) (.cons
        (.define [n! "add"] (.cons (.call (.id (n! "uint64")) (.cons (.idx (.id (n! "p")) (.id (n! "i"))) .nil) false) .nil)) (.cons
        (.opAssign .add (.id (n! "i")) (.int 1)) (.cons
        (.ifs .skip (.bin .lt (.id (n! "i")) (.id (n! "n"))) (.cons
          (.opAssign .or (.id (n! "add")) (.bin .shl (.call (.id (n! "uint64")) (.cons (.idx (.id (n! "p")) (.id (n! "i"))) .nil) false) (.int 8))) (.cons
          (.opAssign .add (.id (n! "i")) (.int 1)) (.cons
          (.ifs .skip (.bin .lt (.id (n! "i")) (.id (n! "n"))) (.cons
            (.opAssign .or (.id (n! "add")) (.bin .shl (.call (.id (n! "uint64")) (.cons (.idx (.id (n! "p")) (.id (n! "i"))) .nil) false) (.int 16))) (.cons
            (.opAssign .add (.id (n! "i")) (.int 1)) (.cons
            (.ifs .skip (.bin .lt (.id (n! "i")) (.id (n! "n"))) (.cons
              (.opAssign .or (.id (n! "add")) (.bin .shl (.call (.id (n! "uint64")) (.cons (.idx (.id (n! "p")) (.id (n! "i"))) .nil) false) (.int 24))) (.cons
              (.opAssign .add (.id (n! "i")) (.int 1)) .nil)) .nil) .nil))) .nil) .nil))) .nil) (.cons
        (.opAssign .add (.id (n! "c0")) (.id (n! "add"))) (.cons
        (.opAssign .add (.id (n! "c1")) (.id (n! "c0"))) .nil)))))) (.cons
      (.opAssign .rem (.id (n! "c0")) (.id (n! "mod"))) (.cons
      (.opAssign .rem (.id (n! "c1")) (.id (n! "mod"))) .nil)))))) (.cons
    (.assign (.cons (.sel (.un .deref (.id (n! "d"))) (n! "a")) .nil) (.cons (.call (.id (n! "uint32")) (.cons (.id (n! "c0")) .nil) false) .nil)) (.cons
    (.assign (.cons (.sel (.un .deref (.id (n! "d"))) (n! "b")) .nil) (.cons (.call (.id (n! "uint32")) (.cons (.id (n! "c1")) .nil) false) .nil)) .nil)))))))))

def digest64_Write : Decl :=
  .func (n! "d") true (n! "digest64") (n! "Write") (.cons (n! "p") (.slice (.name (n! "byte"))) .nil) (.cons (n! "n") (.name (n! "int")) (.cons (n! "err") (.name (n! "error")) .nil)) (.cons
    (.expr (.call (.sel (.id (n! "d")) (n! "update")) (.cons (.id (n! "p")) .nil) false)) (.cons
    (.ret (.cons (.call (.id (n! "len")) (.cons (.id (n! "p")) .nil) false) (.cons (.id (n! "nil")) .nil))) .nil))

def digest64_Sum : Decl :=
  .func (n! "d") true (n! "digest64") (n! "Sum") (.cons (n! "in") (.slice (.name (n! "byte"))) .nil) (.cons 0 (.slice (.name (n! "byte"))) .nil) (.cons
    (.ret (.cons (.call (.id (n! "append")) (.cons (.id (n! "in")) (.cons (.call (.id (n! "byte")) (.cons (.bin .shr (.sel (.un .deref (.id (n! "d"))) (n! "b")) (.int 24)) .nil) false) (.cons (.call (.id (n! "byte")) (.cons (.bin .shr (.sel (.un .deref (.id (n! "d"))) (n! "b")) (.int 16)) .nil) false) (.cons (.call (.id (n! "byte")) (.cons (.bin .shr (.sel (.un .deref (.id (n! "d"))) (n! "b")) (.int 8)) .nil) false) (.cons (.call (.id (n! "byte")) (.cons (.sel (.un .deref (.id (n! "d"))) (n! "b")) .nil) false) (.cons (.call (.id (n! "byte")) (.cons (.bin .shr (.sel (.un .deref (.id (n! "d"))) (n! "a")) (.int 24)) .nil) false) (.cons (.call (.id (n! "byte")) (.cons (.bin .shr (.sel (.un .deref (.id (n! "d"))) (n! "a")) (.int 16)) .nil) false) (.cons (.call (.id (n! "byte")) (.cons (.bin .shr (.sel (.un .deref (.id (n! "d"))) (n! "a")) (.int 8)) .nil) false) (.cons (.call (.id (n! "byte")) (.cons (.sel (.un .deref (.id (n! "d"))) (n! "a")) .nil) false) .nil))))))))) false) .nil)) .nil)

def digest64_Reset : Decl :=
  .func (n! "d") true (n! "digest64") (n! "Reset") .nil .nil (.cons
    (.assign (.cons (.sel (.un .deref (.id (n! "d"))) (n! "a")) .nil) (.cons (.int 0) .nil)) (.cons
    (.assign (.cons (.sel (.un .deref (.id (n! "d"))) (n! "b")) .nil) (.cons (.int 0) .nil)) .nil))

def digest64_Size : Decl :=
  .func (n! "d") true (n! "digest64") (n! "Size") .nil (.cons 0 (.name (n! "int")) .nil) (.cons
    (.ret (.cons (.id (n! "size64")) .nil)) .nil)

def digest64_BlockSize : Decl :=
  .func (n! "d") true (n! "digest64") (n! "BlockSize") .nil (.cons 0 (.name (n! "int")) .nil) (.cons
    (.ret (.cons (.bin .div (.id (n! "size64")) (.int 2)) .nil)) .nil)

def digest64_Sum64 : Decl :=
  .func (n! "d") true (n! "digest64") (n! "Sum64") .nil (.cons 0 (.name (n! "uint64")) .nil) (.cons
    (.ret (.cons (.bin .or (.bin .shl (.call (.id (n! "uint64")) (.cons (.sel (.un .deref (.id (n! "d"))) (n! "b")) .nil) false) (.int 32)) (.call (.id (n! "uint64")) (.cons (.sel (.un .deref (.id (n! "d"))) (n! "a")) .nil) false)) .nil)) .nil)

/-- The syntax tree. -/
def file : File := ⟨n! "fletcher", [[104, 97, 115, 104]], [
  (.const (n! "size64") (.int 8)),
  (.type (n! "digest64") (.struct (.cons (n! "a") (.name (n! "uint32")) (.cons (n! "b") (.name (n! "uint32")) .nil)))),
  New64,
  digest64_update,
  digest64_Write,
  digest64_Sum,
  digest64_Reset,
  digest64_Size,
  digest64_BlockSize,
  digest64_Sum64]⟩

/-- The parser finds this tree in the text. -/
theorem parsed : parse src = some file := by kernel_rfl

end Source.Fletcher64
