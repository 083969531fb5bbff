import Verif.Lang.Parser

/-!
# Source of net/IpTree.go

The text of the file, line by line without line ends, and its syntax tree as found by the parser. Generated by `tools/source.py`.
-/
namespace Source.NetIpTree
open GoLang

/-- The text. -/
def src : List String := [
r#"// Copyright 2022 gnabgib"#,
r#"// This Source Code Form is subject to the terms of the Mozilla Public License v2.0"#,
r#""#,
r#"package net"#,
r#""#,
r#"import ("#,
r#"	"net""#,
r#")"#,
r#""#,
r#"type iTreeNode interface {"#,
r#"	getValue() interface{}"#,
r#"	each(position uint32, mask byte, output func(position uint32, mask byte, value interface{}))"#,
r#"}"#,
r#""#,
r#"// All values below are represented"#,
r#"type all struct {"#,
r#"	value interface{}"#,
r#"}"#,
r#""#,
r#"func (n all) getValue() interface{} {"#,
r#"	return n.value"#,
r#"}"#,
r#"func (n all) each(position uint32, mask byte, output func(position uint32, mask byte, value interface{})) {"#,
r#"	output(position, 31-mask, n.value)"#,
r#"}"#,
r#""#,
r#"func newAll(value interface{}) all {"#,
r#"	return all{value}"#,
r#"}"#,
r#""#,
r#"// No values below are represented"#,
r#"type none struct{}"#,
r#""#,
r#"func (n none) getValue() interface{} {"#,
r#"	return nil"#,
r#"}"#,
r#"func (n none) each(position uint32, mask byte, output func(position uint32, mask byte, value interface{})) {"#,
r#"	//nop"#,
r#"}"#,
r#""#,
r#"// A node/fork that represents two paths"#,
r#"type treeNode struct {"#,
r#"	l, r iTreeNode"#,
r#"}"#,
r#""#,
r#"func newTreeNode() treeNode {"#,
r#"	r := treeNode{&none{}, &none{}}"#,
r#"	return r"#,
r#"}"#,
r#""#,
r#"func (n treeNode) getValue() interface{} {"#,
r#"	return nil"#,
r#"}"#,
r#"func (n treeNode) each(position uint32, mask byte, output func(position uint32, mask byte, value interface{})) {"#,
r#"	n.l.each(position, mask-1, output)"#,
r#"	n.r.each(position|(1<<mask), mask-1, output)"#,
r#"}"#,
r#"func add(parent iTreeNode, pos uint32, mask, end byte, value interface{}, merge func(a, b interface{}) interface{}) iTreeNode {"#,
r#"	//If at an all node, no further processing needed"#,
r#"	if _, isAll := parent.(all); isAll {"#,
r#"		return parent"#,
r#"	}"#,
r#"	//If we've descended as far as we need to, make it an all node and be done"#,
r#"	if mask <= end {"#,
r#"		return newAll(value)"#,
r#"	}"#,
r#""#,
r#"	//If this is a none node (ie not a TreeNode), switch (all has already been filtered)"#,
r#"	ret, isTree := parent.(treeNode)"#,
r#"	if !isTree {"#,
r#"		ret = newTreeNode()"#,
r#"	}"#,
r#""#,
r#"	//Now descend"#,
r#"	mask -= 1"#,
r#"	odd := (pos >> mask) & 1"#,
r#"	if odd == 1 {"#,
r#"		ret.r = add(ret.r, pos, mask, end, value, merge)"#,
r#"	} else {"#,
r#"		ret.l = add(ret.l, pos, mask, end, value, merge)"#,
r#"	}"#,
r#""#,
r#"	//If children are all, switch to all node"#,
r#"	lAll, lIsAll := ret.l.(all)"#,
r#"	rAll, rIsAll := ret.r.(all)"#,
r#"	if lIsAll && rIsAll {"#,
r#"		return newAll(merge(lAll.value, rAll.value))"#,
r#"	}"#,
r#""#,
r#"	//Since you can't switch to none-nodes, and you only switch from if there are"#,
r#"	// children.. we don't need to check for children=none"#,
r#"	return ret"#,
r#"}"#,
r#""#,
r#"type Tree struct {"#,
r#"	root  iTreeNode"#,
r#"	merge func(a, b interface{}) interface{}"#,
r#"}"#,
r#""#,
r#"func New(merge func(a, b interface{}) interface{}) *Tree {"#,
r#"	tree := &Tree{none{}, merge}"#,
r#"	return tree"#,
r#"}"#,
r#""#,
r#"// Add a single IP to the tree"#,
r#"func (t *Tree) AddIp(ip net.IP, value interface{}) {"#,
r#"	u := Ipv4ToUint(ip)"#,
r#"	t.root = add(t.root, u, 32, 0, value, t.merge)"#,
r#"}"#,
r#""#,
r#"// Add a range of IPs to the tree (inclusive)"#,
r#"func (t *Tree) AddRange(start, end net.IP, value interface{}) {"#,
r#"	uStart := Ipv4ToUint(start)"#,
r#"	uEnd := Ipv4ToUint(end)"#,
r#"	for uStart <= uEnd {"#,
r#"		m := (uStart - 1) & ^uStart"#,
r#"		for uStart+m > uEnd {"#,
r#"			m >>= 1"#,
r#"		}"#,
r#"		var bit byte"#,
r#"		bit = 0"#,
r#"		temp := m"#,
r#"		for temp != 0 {"#,
r#"			bit += 1"#,
r#"			temp >>= 1"#,
r#"		}"#,
r#"		t.root = add(t.root, uStart, 32, bit, value, t.merge)"#,
r#"		uStart += m + 1"#,
r#"	}"#,
r#"}"#,
r#""#,
r#"type CidrValue struct {"#,
r#"	Cidr  *net.IPNet"#,
r#"	Value interface{}"#,
r#"}"#,
r#""#,
r#"// Add a CIDR to the tree"#,
r#"func (t *Tree) AddCidr(cidr *net.IPNet, value interface{}) {"#,
r#"	u := Ipv4ToUint(cidr.IP)"#,
r#"	b := MaskToByte(cidr.Mask)"#,
r#"	t.root = add(t.root, u, 32, 32-b, value, t.merge)"#,
r#"}"#,
r#""#,
r#"// List all CIDR that describe the contents of the tree"#,
r#"func (t *Tree) ListCidr() []CidrValue {"#,
r#"	ret := make([]CidrValue, 0)"#,
r#"	t.root.each(0, 31, func(position uint32, bit byte, value interface{}) {"#,
r#"		ip := Ipv4FromUint(position)"#,
r#"		mask := MaskFromByte(bit)"#,
r#"		cidr := &net.IPNet{IP: ip, Mask: mask}"#,
r#"		ret = append(ret, CidrValue{cidr, value})"#,
r#"	})"#,
r#"	return ret"#,
r#"}"#,
r#""#]

def all_getValue : Decl :=
  .func (n! "n") false (n! "all") (n! "getValue") .nil (.cons 0 .iface .nil) (.cons
    (.ret (.cons (.sel (.id (n! "n")) (n! "value")) .nil)) .nil)

def all_each : Decl :=
  .func (n! "n") false (n! "all") (n! "each") (.cons (n! "position") (.name (n! "uint32")) (.cons (n! "mask") (.name (n! "byte")) (.cons (n! "output") (.func (.cons (n! "position") (.name (n! "uint32")) (.cons (n! "mask") (.name (n! "byte")) (.cons (n! "value") .iface .nil))) .nil) .nil))) .nil (.cons
    (.expr (.call (.id (n! "output")) (.cons (.id (n! "position")) (.cons (.bin .sub (.int 31) (.id (n! "mask"))) (.cons (.sel (.id (n! "n")) (n! "value")) .nil))) false)) .nil)

def newAll : Decl :=
  .func 0 false 0 (n! "newAll") (.cons (n! "value") .iface .nil) (.cons 0 (.name (n! "all")) .nil) (.cons
    (.ret (.cons (.comp (.name (n! "all")) (.cons 0 (.id (n! "value")) .nil)) .nil)) .nil)

def none_getValue : Decl :=
  .func (n! "n") false (n! "none") (n! "getValue") .nil (.cons 0 .iface .nil) (.cons
    (.ret (.cons (.id (n! "nil")) .nil)) .nil)

def none_each : Decl :=
  .func (n! "n") false (n! "none") (n! "each") (.cons (n! "position") (.name (n! "uint32")) (.cons (n! "mask") (.name (n! "byte")) (.cons (n! "output") (.func (.cons (n! "position") (.name (n! "uint32")) (.cons (n! "mask") (.name (n! "byte")) (.cons (n! "value") .iface .nil))) .nil) .nil))) .nil .nil

def newTreeNode : Decl :=
  .func 0 false 0 (n! "newTreeNode") .nil (.cons 0 (.name (n! "treeNode")) .nil) (.cons
    (.define [n! "r"] (.cons (.comp (.name (n! "treeNode")) (.cons 0 (.un .addr (.comp (.name (n! "none")) .nil)) (.cons 0 (.un .addr (.comp (.name (n! "none")) .nil)) .nil))) .nil)) (.cons
    (.ret (.cons (.id (n! "r")) .nil)) .nil))

def treeNode_getValue : Decl :=
  .func (n! "n") false (n! "treeNode") (n! "getValue") .nil (.cons 0 .iface .nil) (.cons
    (.ret (.cons (.id (n! "nil")) .nil)) .nil)

def treeNode_each : Decl :=
  .func (n! "n") false (n! "treeNode") (n! "each") (.cons (n! "position") (.name (n! "uint32")) (.cons (n! "mask") (.name (n! "byte")) (.cons (n! "output") (.func (.cons (n! "position") (.name (n! "uint32")) (.cons (n! "mask") (.name (n! "byte")) (.cons (n! "value") .iface .nil))) .nil) .nil))) .nil (.cons
    (.expr (.call (.sel (.sel (.id (n! "n")) (n! "l")) (n! "each")) (.cons (.id (n! "position")) (.cons (.bin .sub (.id (n! "mask")) (.int 1)) (.cons (.id (n! "output")) .nil))) false)) (.cons
    (.expr (.call (.sel (.sel (.id (n! "n")) (n! "r")) (n! "each")) (.cons (.bin .or (.id (n! "position")) (.bin .shl (.int 1) (.id (n! "mask")))) (.cons (.bin .sub (.id (n! "mask")) (.int 1)) (.cons (.id (n! "output")) .nil))) false)) .nil))

def add : Decl :=
  .func 0 false 0 (n! "add") (.cons (n! "parent") (.name (n! "iTreeNode")) (.cons (n! "pos") (.name (n! "uint32")) (.cons (n! "mask") (.name (n! "byte")) (.cons (n! "end") (.name (n! "byte")) (.cons (n! "value") .iface (.cons (n! "merge") (.func (.cons (n! "a") .iface (.cons (n! "b") .iface .nil)) (.cons 0 .iface .nil)) .nil)))))) (.cons 0 (.name (n! "iTreeNode")) .nil) (.cons
    (.ifs (.define [n! "_", n! "isAll"] (.cons (.assert (.id (n! "parent")) (.name (n! "all"))) .nil)) (.id (n! "isAll")) (.cons
      (.ret (.cons (.id (n! "parent")) .nil)) .nil) .nil) (.cons
    (.ifs .skip (.bin .le (.id (n! "mask")) (.id (n! "end"))) (.cons
      (.ret (.cons (.call (.id (n! "newAll")) (.cons (.id (n! "value")) .nil) false) .nil)) .nil) .nil) (.cons
    (.define [n! "ret", n! "isTree"] (.cons (.assert (.id (n! "parent")) (.name (n! "treeNode"))) .nil)) (.cons
    (.ifs .skip (.un .not (.id (n! "isTree"))) (.cons
      (.assign (.cons (.id (n! "ret")) .nil) (.cons (.call (.id (n! "newTreeNode")) .nil false) .nil)) .nil) .nil) (.cons
    (.opAssign .sub (.id (n! "mask")) (.int 1)) (.cons
    (.define [n! "odd"] (.cons (.bin .and (.bin .shr (.id (n! "pos")) (.id (n! "mask"))) (.int 1)) .nil)) (.cons
    (.ifs .skip (.bin .eq (.id (n! "odd")) (.int 1)) (.cons
      (.assign (.cons (.sel (.id (n! "ret")) (n! "r")) .nil) (.cons (.call (.id (n! "add")) (.cons (.sel (.id (n! "ret")) (n! "r")) (.cons (.id (n! "pos")) (.cons (.id (n! "mask")) (.cons (.id (n! "end")) (.cons (.id (n! "value")) (.cons (.id (n! "merge")) .nil)))))) false) .nil)) .nil) (.cons
      (.assign (.cons (.sel (.id (n! "ret")) (n! "l")) .nil) (.cons (.call (.id (n! "add")) (.cons (.sel (.id (n! "ret")) (n! "l")) (.cons (.id (n! "pos")) (.cons (.id (n! "mask")) (.cons (.id (n! "end")) (.cons (.id (n! "value")) (.cons (.id (n! "merge")) .nil)))))) false) .nil)) .nil)) (.cons
    (.define [n! "lAll", n! "lIsAll"] (.cons (.assert (.sel (.id (n! "ret")) (n! "l")) (.name (n! "all"))) .nil)) (.cons
    (.define [n! "rAll", n! "rIsAll"] (.cons (.assert (.sel (.id (n! "ret")) (n! "r")) (.name (n! "all"))) .nil)) (.cons
    (.ifs .skip (.bin .land (.id (n! "lIsAll")) (.id (n! "rIsAll"))) (.cons
      (.ret (.cons (.call (.id (n! "newAll")) (.cons (.call (.id (n! "merge")) (.cons (.sel (.id (n! "lAll")) (n! "value")) (.cons (.sel (.id (n! "rAll")) (n! "value")) .nil)) false) .nil) false) .nil)) .nil) .nil) (.cons
    (.ret (.cons (.id (n! "ret")) .nil)) .nil)))))))))))

def New : Decl :=
  .func 0 false 0 (n! "New") (.cons (n! "merge") (.func (.cons (n! "a") .iface (.cons (n! "b") .iface .nil)) (.cons 0 .iface .nil)) .nil) (.cons 0 (.ptr (.name (n! "Tree"))) .nil) (.cons
    (.define [n! "tree"] (.cons (.un .addr (.comp (.name (n! "Tree")) (.cons 0 (.comp (.name (n! "none")) .nil) (.cons 0 (.id (n! "merge")) .nil)))) .nil)) (.cons
    (.ret (.cons (.id (n! "tree")) .nil)) .nil))

def Tree_AddIp : Decl :=
  .func (n! "t") true (n! "Tree") (n! "AddIp") (.cons (n! "ip") (.qual (n! "net") (n! "IP")) (.cons (n! "value") .iface .nil)) .nil (.cons
    (.define [n! "u"] (.cons (.call (.id (n! "Ipv4ToUint")) (.cons (.id (n! "ip")) .nil) false) .nil)) (.cons
    (.assign (.cons (.sel (.id (n! "t")) (n! "root")) .nil) (.cons (.call (.id (n! "add")) (.cons (.sel (.id (n! "t")) (n! "root")) (.cons (.id (n! "u")) (.cons (.int 32) (.cons (.int 0) (.cons (.id (n! "value")) (.cons (.sel (.id (n! "t")) (n! "merge")) .nil)))))) false) .nil)) .nil))

def Tree_AddRange : Decl :=
  .func (n! "t") true (n! "Tree") (n! "AddRange") (.cons (n! "start") (.qual (n! "net") (n! "IP")) (.cons (n! "end") (.qual (n! "net") (n! "IP")) (.cons (n! "value") .iface .nil))) .nil (.cons
    (.define [n! "uStart"] (.cons (.call (.id (n! "Ipv4ToUint")) (.cons (.id (n! "start")) .nil) false) .nil)) (.cons
    (.define [n! "uEnd"] (.cons (.call (.id (n! "Ipv4ToUint")) (.cons (.id (n! "end")) .nil) false) .nil)) (.cons
    (.for .skip (.bin .le (.id (n! "uStart")) (.id (n! "uEnd"))) .skip (.cons
      (.define [n! "m"] (.cons (.bin .and (.bin .sub (.id (n! "uStart")) (.int 1)) (.un .com (.id (n! "uStart")))) .nil)) (.cons
      (.for .skip (.bin .gt (.bin .add (.id (n! "uStart")) (.id (n! "m"))) (.id (n! "uEnd"))) .skip (.cons
        (.opAssign .shr (.id (n! "m")) (.int 1)) .nil)) (.cons
      (.var [n! "bit"] (.name (n! "byte")) .nil) (.cons
      (.assign (.cons (.id (n! "bit")) .nil) (.cons (.int 0) .nil)) (.cons
      (.define [n! "temp"] (.cons (.id (n! "m")) .nil)) (.cons
      (.for .skip (.bin .ne (.id (n! "temp")) (.int 0)) .skip (.cons
        (.opAssign .add (.id (n! "bit")) (.int 1)) (.cons
        (.opAssign .shr (.id (n! "temp")) (.int 1)) .nil))) (.cons
      (.assign (.cons (.sel (.id (n! "t")) (n! "root")) .nil) (.cons (.call (.id (n! "add")) (.cons (.sel (.id (n! "t")) (n! "root")) (.cons (.id (n! "uStart")) (.cons (.int 32) (.cons (.id (n! "bit")) (.cons (.id (n! "value")) (.cons (.sel (.id (n! "t")) (n! "merge")) .nil)))))) false) .nil)) (.cons
      (.opAssign .add (.id (n! "uStart")) (.bin .add (.id (n! "m")) (.int 1))) .nil))))))))) .nil)))

def Tree_AddCidr : Decl :=
  .func (n! "t") true (n! "Tree") (n! "AddCidr") (.cons (n! "cidr") (.ptr (.qual (n! "net") (n! "IPNet"))) (.cons (n! "value") .iface .nil)) .nil (.cons
    (.define [n! "u"] (.cons (.call (.id (n! "Ipv4ToUint")) (.cons (.sel (.id (n! "cidr")) (n! "IP")) .nil) false) .nil)) (.cons
    (.define [n! "b"] (.cons (.call (.id (n! "MaskToByte")) (.cons (.sel (.id (n! "cidr")) (n! "Mask")) .nil) false) .nil)) (.cons
    (.assign (.cons (.sel (.id (n! "t")) (n! "root")) .nil) (.cons (.call (.id (n! "add")) (.cons (.sel (.id (n! "t")) (n! "root")) (.cons (.id (n! "u")) (.cons (.int 32) (.cons (.bin .sub (.int 32) (.id (n! "b"))) (.cons (.id (n! "value")) (.cons (.sel (.id (n! "t")) (n! "merge")) .nil)))))) false) .nil)) .nil)))

def Tree_ListCidr : Decl :=
  .func (n! "t") true (n! "Tree") (n! "ListCidr") .nil (.cons 0 (.slice (.name (n! "CidrValue"))) .nil) (.cons
    (.define [n! "ret"] (.cons (.call (.id (n! "make")) (.cons (.ty (.slice (.name (n! "CidrValue")))) (.cons (.int 0) .nil)) false) .nil)) (.cons
    (.expr (.call (.sel (.sel (.id (n! "t")) (n! "root")) (n! "each")) (.cons (.int 0) (.cons (.int 31) (.cons (.func (.cons (n! "position") (.name (n! "uint32")) (.cons (n! "bit") (.name (n! "byte")) (.cons (n! "value") .iface .nil))) .nil (.cons
      (.define [n! "ip"] (.cons (.call (.id (n! "Ipv4FromUint")) (.cons (.id (n! "position")) .nil) false) .nil)) (.cons
      (.define [n! "mask"] (.cons (.call (.id (n! "MaskFromByte")) (.cons (.id (n! "bit")) .nil) false) .nil)) (.cons
      (.define [n! "cidr"] (.cons (.un .addr (.comp (.qual (n! "net") (n! "IPNet")) (.cons (n! "IP") (.id (n! "ip")) (.cons (n! "Mask") (.id (n! "mask")) .nil)))) .nil)) (.cons
      (.assign (.cons (.id (n! "ret")) .nil) (.cons (.call (.id (n! "append")) (.cons (.id (n! "ret")) (.cons (.comp (.name (n! "CidrValue")) (.cons 0 (.id (n! "cidr")) (.cons 0 (.id (n! "value")) .nil))) .nil)) false) .nil)) .nil))))) .nil))) false)) (.cons
    (.ret (.cons (.id (n! "ret")) .nil)) .nil)))

/-- The syntax tree. -/
def file : File := ⟨n! "net", [[110, 101, 116]], [
  (.type (n! "iTreeNode") .iface),
  (.type (n! "all") (.struct (.cons (n! "value") .iface .nil))),
  all_getValue,
  all_each,
  newAll,
  (.type (n! "none") (.struct .nil)),
  none_getValue,
  none_each,
  (.type (n! "treeNode") (.struct (.cons (n! "l") (.name (n! "iTreeNode")) (.cons (n! "r") (.name (n! "iTreeNode")) .nil)))),
  newTreeNode,
  treeNode_getValue,
  treeNode_each,
  add,
  (.type (n! "Tree") (.struct (.cons (n! "root") (.name (n! "iTreeNode")) (.cons (n! "merge") (.func (.cons (n! "a") .iface (.cons (n! "b") .iface .nil)) (.cons 0 .iface .nil)) .nil)))),
  New,
  Tree_AddIp,
  Tree_AddRange,
  (.type (n! "CidrValue") (.struct (.cons (n! "Cidr") (.ptr (.qual (n! "net") (n! "IPNet"))) (.cons (n! "Value") .iface .nil)))),
  Tree_AddCidr,
  Tree_ListCidr]⟩

/-- The parser finds this tree in the text. -/
theorem parsed : parse src = some file := by kernel_rfl

end Source.NetIpTree
