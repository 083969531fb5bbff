import Verif.Lang.Parser

/-!
# Source of net/Cidr.go

The text of the file, line by line without line ends, and its syntax tree as found by the parser. Generated by `tools/source.py`.
-/
namespace Source.NetCidr
open GoLang

/-- The text. -/
def src : List String := [
r#"// Copyright 2022 gnabgib"#,
r#"// This Source Code Form is subject to the terms of the Mozilla Public License v2.0"#,
r#""#,
r#"package net"#,
r#""#,
r#"import ("#,
r#"	"bytes""#,
r#"	"net""#,
r#")"#,
r#""#,
r#"// Whether two Cidr are equal (IP and masks match)"#,
r#"func CidrEqual(a, b *net.IPNet) bool {"#,
r#"	m := bytes.Compare(a.Mask, b.Mask)"#,
r#"	if m != 0 {"#,
r#"		//Masks don't match"#,
r#"		return false"#,
r#"	}"#,
r#"	//Make sure IP compare is only the v4 versions"#,
r#"	i := bytes.Compare(a.IP.To4(), b.IP.To4())"#,
r#"	return i == 0"#,
r#"}"#,
r#""#,
r#"// First Ipv4 address in a CIDR (ignores network address)"#,
r#"func FirstIpv4(n *net.IPNet) net.IP {"#,
r#"	// ones, _ := n.Mask.Size()"#,
r#"	// if ones >= 31 {"#,
r#"	// 	return n.IP"#,
r#"	// }"#,
r#"	// otherwise: next IP"#,
r#"	return n.IP"#,
r#"}"#,
r#""#,
r#"// Last Ipv4 address in a CIDR (ignores broadcast)"#,
r#"func LastIpv4(n *net.IPNet) net.IP {"#,
r#"	ret := make([]byte, 4)"#,
r#"	ret[0]=n.IP[0] | ^n.Mask[0]"#,
r#"	ret[1]=n.IP[1] | ^n.Mask[1]"#,
r#"	ret[2]=n.IP[2] | ^n.Mask[2]"#,
r#"	ret[3]=n.IP[3] | ^n.Mask[3]"#,
r#"	return ret"#,
r#"}"#,
r#""#,
r#"// This is provided by go IPNet.Contains(ip IP) bool"#,
r#"// // Whether the given IP is within the CIDR"#,
r#"// func ContainsIpv4(cidr *net.IPNet,ip net.IP) bool {"#,
r#"// 	start := FirstIpv4(cidr)"#,
r#"// 	//A v6 address cannot be contained"#,
r#"// 	i4:=ip.To4()"#,
r#"// 	if i4==nil {"#,
r#"// 		return false"#,
r#"// 	}"#,
r#""#,
r#"// 	masked := make([]byte, 4)"#,
r#"// 	masked[0]=i4[0] & cidr.Mask[0]"#,
r#"// 	masked[1]=i4[1] & cidr.Mask[1]"#,
r#"// 	masked[2]=i4[2] & cidr.Mask[2]"#,
r#"// 	masked[3]=i4[3] & cidr.Mask[3]"#,
r#""#,
r#"// 	return bytes.Equal(start,masked)"#,
r#"// }"#]

def CidrEqual : Decl :=
  .func 0 false 0 (n! "CidrEqual") (.cons (n! "a") (.ptr (.qual (n! "net") (n! "IPNet"))) (.cons (n! "b") (.ptr (.qual (n! "net") (n! "IPNet"))) .nil)) (.cons 0 (.name (n! "bool")) .nil) (.cons
    (.define [n! "m"] (.cons (.call (.sel (.id (n! "bytes")) (n! "Compare")) (.cons (.sel (.id (n! "a")) (n! "Mask")) (.cons (.sel (.id (n! "b")) (n! "Mask")) .nil)) false) .nil)) (.cons
    (.ifs .skip (.bin .ne (.id (n! "m")) (.int 0)) (.cons
      (.ret (.cons (.id (n! "false")) .nil)) .nil) .nil) (.cons
    (.define [n! "i"] (.cons (.call (.sel (.id (n! "bytes")) (n! "Compare")) (.cons (.call (.sel (.sel (.id (n! "a")) (n! "IP")) (n! "To4")) .nil false) (.cons (.call (.sel (.sel (.id (n! "b")) (n! "IP")) (n! "To4")) .nil false) .nil)) false) .nil)) (.cons
    (.ret (.cons (.bin .eq (.id (n! "i")) (.int 0)) .nil)) .nil))))

def FirstIpv4 : Decl :=
  .func 0 false 0 (n! "FirstIpv4") (.cons (n! "n") (.ptr (.qual (n! "net") (n! "IPNet"))) .nil) (.cons 0 (.qual (n! "net") (n! "IP")) .nil) (.cons
    (.ret (.cons (.sel (.id (n! "n")) (n! "IP")) .nil)) .nil)

def LastIpv4 : Decl :=
  .func 0 false 0 (n! "LastIpv4") (.cons (n! "n") (.ptr (.qual (n! "net") (n! "IPNet"))) .nil) (.cons 0 (.qual (n! "net") (n! "IP")) .nil) (.cons
    (.define [n! "ret"] (.cons (.call (.id (n! "make")) (.cons (.ty (.slice (.name (n! "byte")))) (.cons (.int 4) .nil)) false) .nil)) (.cons
    (.assign (.cons (.idx (.id (n! "ret")) (.int 0)) .nil) (.cons (.bin .or (.idx (.sel (.id (n! "n")) (n! "IP")) (.int 0)) (.un .com (.idx (.sel (.id (n! "n")) (n! "Mask")) (.int 0)))) .nil)) (.cons
    (.assign (.cons (.idx (.id (n! "ret")) (.int 1)) .nil) (.cons (.bin .or (.idx (.sel (.id (n! "n")) (n! "IP")) (.int 1)) (.un .com (.idx (.sel (.id (n! "n")) (n! "Mask")) (.int 1)))) .nil)) (.cons
    (.assign (.cons (.idx (.id (n! "ret")) (.int 2)) .nil) (.cons (.bin .or (.idx (.sel (.id (n! "n")) (n! "IP")) (.int 2)) (.un .com (.idx (.sel (.id (n! "n")) (n! "Mask")) (.int 2)))) .nil)) (.cons
    (.assign (.cons (.idx (.id (n! "ret")) (.int 3)) .nil) (.cons (.bin .or (.idx (.sel (.id (n! "n")) (n! "IP")) (.int 3)) (.un .com (.idx (.sel (.id (n! "n")) (n! "Mask")) (.int 3)))) .nil)) (.cons
    (.ret (.cons (.id (n! "ret")) .nil)) .nil))))))

/-- The syntax tree. -/
def file : File := ⟨n! "net", [[98, 121, 116, 101, 115], [110, 101, 116]], [
  CidrEqual,
  FirstIpv4,
  LastIpv4]⟩

/-- The parser finds this tree in the text. -/
theorem parsed : parse src = some file := by kernel_rfl

end Source.NetCidr
