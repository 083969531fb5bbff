import Verif.Lang.Parser

/-!
# Source of net/Ipv4.go

The text of the file, line by line without line ends, and its syntax tree as found by the parser. Generated by `tools/source.py`.
-/
namespace Source.NetIpv4
open GoLang

/-- The text. -/
def src : List String := [
r#"// Copyright 2022 gnabgib"#,
r#"// This Source Code Form is subject to the terms of the Mozilla Public License v2.0"#,
r#""#,
r#"package net"#,
r#""#,
r#"import ("#,
r#"	"encoding/binary""#,
r#"	"net""#,
r#")"#,
r#""#,
r#"// Turn an IP address into a 32bit uint"#,
r#"func Ipv4ToUint(ip net.IP) uint32 {"#,
r#"	i4 := ip.To4()"#,
r#"	if i4==nil {"#,
r#"		return 0"#,
r#"	}"#,
r#"	return binary.BigEndian.Uint32(i4)"#,
r#"}"#,
r#""#,
r#"// Get an IP address from a 32bit uint"#,
r#"func Ipv4FromUint(u uint32) net.IP {"#,
r#"	ret := make([]byte, 4)"#,
r#"	binary.BigEndian.PutUint32(ret, u)"#,
r#"	return ret"#,
r#"}"#]

def Ipv4ToUint : Decl :=
  .func 0 false 0 (n! "Ipv4ToUint") (.cons (n! "ip") (.qual (n! "net") (n! "IP")) .nil) (.cons 0 (.name (n! "uint32")) .nil) (.cons
    (.define [n! "i4"] (.cons (.call (.sel (.id (n! "ip")) (n! "To4")) .nil false) .nil)) (.cons
    (.ifs .skip (.bin .eq (.id (n! "i4")) (.id (n! "nil"))) (.cons
      (.ret (.cons (.int 0) .nil)) .nil) .nil) (.cons
    (.ret (.cons (.call (.sel (.sel (.id (n! "binary")) (n! "BigEndian")) (n! "Uint32")) (.cons (.id (n! "i4")) .nil) false) .nil)) .nil)))

def Ipv4FromUint : Decl :=
  .func 0 false 0 (n! "Ipv4FromUint") (.cons (n! "u") (.name (n! "uint32")) .nil) (.cons 0 (.qual (n! "net") (n! "IP")) .nil) (.cons
    (.define [n! "ret"] (.cons (.call (.id (n! "make")) (.cons (.ty (.slice (.name (n! "byte")))) (.cons (.int 4) .nil)) false) .nil)) (.cons
    (.expr (.call (.sel (.sel (.id (n! "binary")) (n! "BigEndian")) (n! "PutUint32")) (.cons (.id (n! "ret")) (.cons (.id (n! "u")) .nil)) false)) (.cons
    (.ret (.cons (.id (n! "ret")) .nil)) .nil)))

/-- The syntax tree. -/
def file : File := ⟨n! "net", [[101, 110, 99, 111, 100, 105, 110, 103, 47, 98, 105, 110, 97, 114, 121], [110, 101, 116]], [
  Ipv4ToUint,
  Ipv4FromUint]⟩

/-- The parser finds this tree in the text. -/
theorem parsed : parse src = some file := by kernel_rfl

end Source.NetIpv4
