import Verif.Lang.Parser

/-!
# Source of hash/whirlpool/make_tables.go

The text of the file, line by line without line ends, and its syntax tree as found by the parser. Generated by `tools/source.py`.
-/
namespace Source.MakeTables
open GoLang

/-- The text. -/
def src : List String := [
r#"// Copyright 2023 gnabgib"#,
r#"// This Source Code Form is subject to the terms of the Mozilla Public License v2.0"#,
r#""#,
r#"//go:build ignore"#,
r#"// +build ignore"#,
r#""#,
r#"// Generates whirlpool_tables.go"#,
r#"// `go run make_tables.go`"#,
r#""#,
r#"package main"#,
r#""#,
r#"import ("#,
r#"	"bytes""#,
r#"	"encoding/binary""#,
r#"	"fmt""#,
r#"	"go/format""#,
r#"	"io""#,
r#"	"log""#,
r#"	"math/bits""#,
r#"	"os""#,
r#""#,
r#"	"github.com/gnabgib/gnablib-go/encoding/hex""#,
r#")"#,
r#""#,
r#"const ("#,
r#"	rounds = 10"#,
r#"	gfPoly = 0x11d //GF(2^8) polynomial=x8+x4+x3+x2+1"#,
r#"	sBox   = "" +"#,
r#"		"\x18\x23\xc6\xe8\x87\xb8\x01\x4f\x36\xa6\xd2\xf5\x79\x6f\x91\x52" +"#,
r#"		"\x60\xbc\x9b\x8e\xa3\x0c\x7b\x35\x1d\xe0\xd7\xc2\x2e\x4b\xfe\x57" +"#,
r#"		"\x15\x77\x37\xe5\x9f\xf0\x4a\xda\x58\xc9\x29\x0a\xb1\xa0\x6b\x85" +"#,
r#"		"\xbd\x5d\x10\xf4\xcb\x3e\x05\x67\xe4\x27\x41\x8b\xa7\x7d\x95\xd8" +"#,
r#"		//"#,
r#"		"\xfb\xee\x7c\x66\xdd\x17\x47\x9e\xca\x2d\xbf\x07\xad\x5a\x83\x33" +"#,
r#"		"\x63\x02\xaa\x71\xc8\x19\x49\xd9\xf2\xe3\x5b\x88\x9a\x26\x32\xb0" +"#,
r#"		"\xe9\x0f\xd5\x80\xbe\xcd\x34\x48\xff\x7a\x90\x5f\x20\x68\x1a\xae" +"#,
r#"		"\xb4\x54\x93\x22\x64\xf1\x73\x12\x40\x08\xc3\xec\xdb\xa1\x8d\x3d" +"#,
r#"		//"#,
r#"		"\x97\x00\xcf\x2b\x76\x82\xd6\x1b\xb5\xaf\x6a\x50\x45\xf3\x30\xef" +"#,
r#"		"\x3f\x55\xa2\xea\x65\xba\x2f\xc0\xde\x1c\xfd\x4d\x92\x75\x06\x8a" +"#,
r#"		"\xb2\xe6\x0e\x1f\x62\xd4\xa8\x96\xf9\xc5\x25\x59\x84\x72\x39\x4c" +"#,
r#"		"\x5e\x78\x38\x8c\xd1\xa5\xe2\x61\xb3\x21\x9c\x1e\x43\xc7\xfc\x04" +"#,
r#"		//"#,
r#"		"\x51\x99\x6d\x0d\xfa\xdf\x7e\x24\x3b\xab\xce\x11\x8f\x4e\xb7\xeb" +"#,
r#"		"\x3c\x81\x94\xf7\xb9\x13\x2c\xd3\xe7\x6e\xc4\x03\x56\x44\x7f\xa9" +"#,
r#"		"\x2a\xbb\xc1\x53\xdc\x0b\x9d\x6c\x31\x74\xf6\x46\xac\x89\x14\xe1" +"#,
r#"		"\x16\x3a\x69\x09\x70\xb6\xd0\xed\xcc\x42\x98\xa4\x28\x5c\xf8\x86" // substitutionBox"#,
r#")"#,
r#""#,
r#"var header = []byte(`// Copyright 2023 gnabgib
// This Source Code Form is subject to the terms of the Mozilla Public License v2.0

// Code generated by go run make_tables.go. DO NOT EDIT.

package whirlpool

`)"#,
r#""#,
r#"var ("#,
r#"	rc = [rounds]uint64{}  // roundConstants"#,
r#"	ct = [8 * 256]uint64{} // circulantTable"#,
r#")"#,
r#""#,
r#"func main() {"#,
r#"	//Zero pad to 16 digits, the uppercase hex version of a value:"#,
r#"	//fmt.Println(strings.ToUpper(fmt.Sprintf("%016x",circulantTable[q])))"#,
r#""#,
r#"	buildCirculantTable()"#,
r#"	buildRoundConstants()"#,
r#""#,
r#"	buf := bytes.NewBuffer(header)"#,
r#"	fmt.Fprintf(buf,"const rounds=%d\n\n",rounds)"#,
r#"	//Originally used getConst, which creates a string constant of each byte,"#,
r#"	// however the runtime penalty of string->[]byte->uint64 for access was too"#,
r#"	// high.  Possibly because ct is 2Kib in size"#,
r#"	genVar(buf, "rc", rc[:])"#,
r#"	genVar(buf, "ct", ct[:])"#,
r#""#,
r#"	out, err := format.Source(buf.Bytes())"#,
r#"	if err != nil {"#,
r#"		log.Fatal(err)"#,
r#"	}"#,
r#""#,
r#"	err = os.WriteFile("whirlpool_tables.go", out, 0666)"#,
r#"	if err != nil {"#,
r#"		log.Fatal(err)"#,
r#"	}"#,
r#"}"#,
r#""#,
r#"func genConst(w io.Writer, name string, data []uint64) {"#,
r#"	fmt.Fprintf(w, "const %s =\"\"+\n", name)"#,
r#"	for i, v := range data {"#,
r#"		if i > 0 {"#,
r#"			if i%2 == 0 {"#,
r#"				fmt.Fprint(w, "+\n")"#,
r#"			} else {"#,
r#"				fmt.Fprint(w, "+")"#,
r#"			}"#,
r#"		}"#,
r#"		if i%16 == 0 {"#,
r#"			fmt.Fprintf(w, "//%d\n", i)"#,
r#"		}"#,
r#""#,
r#"		fmt.Fprint(w, "\"")"#,
r#"		writeU64LE(w, v)"#,
r#"		fmt.Fprint(w, "\"")"#,
r#"	}"#,
r#"	fmt.Fprint(w, "\n\n")"#,
r#"}"#,
r#""#,
r#"func genVar(w io.Writer, name string, data []uint64) {"#,
r#"	fmt.Fprintf(w, "var %s =[...]uint64{\n", name)"#,
r#"	for i, v := range data {"#,
r#"		if i > 0 {"#,
r#"			if i%4 == 0 {"#,
r#"				fmt.Fprint(w, "\n")"#,
r#"			}"#,
r#"		}"#,
r#"		if i%16 == 0 {"#,
r#"			fmt.Fprintf(w, "//%d\n", i)"#,
r#"		}"#,
r#""#,
r#"		fmt.Fprintf(w, "0x%016x,", v)"#,
r#"	}"#,
r#"	fmt.Fprint(w, "}\n\n")"#,
r#"}"#,
r#""#,
r#"func writeU64LE(w io.Writer, v uint64) {"#,
r#"	b := make([]byte, 8)"#,
r#"	binary.LittleEndian.PutUint64(b, v)"#,
r#"	h := hex.FromBytes(b)"#,
r#"	for i := 0; i < 16; i += 2 {"#,
r#"		fmt.Fprint(w, "\\x"+h[i:i+2])"#,
r#"	}"#,
r#"}"#,
r#""#,
r#"func buildCirculantTable() {"#,
r#"	for x := 0; x < 256; x++ {"#,
r#"		v1 := uint64(sBox[x])"#,
r#"		v2 := v1 << 1"#,
r#"		if v2 >= 0x100 {"#,
r#"			v2 ^= gfPoly"#,
r#"		}"#,
r#"		v4 := v2 << 1"#,
r#"		if v4 >= 0x100 {"#,
r#"			v4 ^= gfPoly"#,
r#"		}"#,
r#"		v5 := v4 ^ v1"#,
r#"		v8 := v4 << 1"#,
r#"		if v8 >= 0x100 {"#,
r#"			v8 ^= gfPoly"#,
r#"		}"#,
r#"		v9 := v8 ^ v1"#,
r#"		ct[x] = (v1 << 56) | (v1 << 48) |"#,
r#"			(v4 << 40) | (v1 << 32) |"#,
r#"			(v8 << 24) | (v5 << 16) |"#,
r#"			(v2 << 8) | v9"#,
r#"		for t := 1; t < 8; t++ {"#,
r#"			ct[(t<<8)|x] = bits.RotateLeft64(ct[((t-1)<<8)|x], -8)"#,
r#"		}"#,
r#"	}"#,
r#"}"#,
r#""#,
r#"func buildRoundConstants() {"#,
r#"	for r := 0; r < rounds; r++ {"#,
r#"		r8 := r << 3"#,
r#"		rc[r] = (ct[r8] & 0xff00000000000000) ^"#,
r#"			(ct[(1<<8)|(r8+1)] & 0x00ff000000000000) ^"#,
r#"			(ct[(2<<8)|(r8+2)] & 0x0000ff0000000000) ^"#,
r#"			(ct[(3<<8)|(r8+3)] & 0x000000ff00000000) ^"#,
r#"			(ct[(4<<8)|(r8+4)] & 0x00000000ff000000) ^"#,
r#"			(ct[(5<<8)|(r8+5)] & 0x0000000000ff0000) ^"#,
r#"			(ct[(6<<8)|(r8+6)] & 0x000000000000ff00) ^"#,
r#"			(ct[(7<<8)|(r8+7)] & 0x00000000000000ff)"#,
r#"	}"#,
r#"}"#,
r#""#]

def main : Decl :=
  .func 0 false 0 (n! "main") .nil .nil (.cons
    (.expr (.call (.id (n! "buildCirculantTable")) .nil false)) (.cons
    (.expr (.call (.id (n! "buildRoundConstants")) .nil false)) (.cons
    (.define [n! "buf"] (.cons (.call (.sel (.id (n! "bytes")) (n! "NewBuffer")) (.cons (.id (n! "header")) .nil) false) .nil)) (.cons
    (.expr (.call (.sel (.id (n! "fmt")) (n! "Fprintf")) (.cons (.id (n! "buf")) (.cons (.str [99, 111, 110, 115, 116, 32, 114, 111, 117, 110, 100, 115, 61, 37, 100, 10, 10]) (.cons (.id (n! "rounds")) .nil))) false)) (.cons
    (.expr (.call (.id (n! "genVar")) (.cons (.id (n! "buf")) (.cons (.str [114, 99]) (.cons (.slc (.id (n! "rc")) .none .none) .nil))) false)) (.cons
    (.expr (.call (.id (n! "genVar")) (.cons (.id (n! "buf")) (.cons (.str [99, 116]) (.cons (.slc (.id (n! "ct")) .none .none) .nil))) false)) (.cons
    (.define [n! "out", n! "err"] (.cons (.call (.sel (.id (n! "format")) (n! "Source")) (.cons (.call (.sel (.id (n! "buf")) (n! "Bytes")) .nil false) .nil) false) .nil)) (.cons
    (.ifs .skip (.bin .ne (.id (n! "err")) (.id (n! "nil"))) (.cons
      (.expr (.call (.sel (.id (n! "log")) (n! "Fatal")) (.cons (.id (n! "err")) .nil) false)) .nil) .nil) (.cons
    (.assign (.cons (.id (n! "err")) .nil) (.cons (.call (.sel (.id (n! "os")) (n! "WriteFile")) (.cons (.str [119, 104, 105, 114, 108, 112, 111, 111, 108, 95, 116, 97, 98, 108, 101, 115, 46, 103, 111]) (.cons (.id (n! "out")) (.cons (.int 438) .nil))) false) .nil)) (.cons
    (.ifs .skip (.bin .ne (.id (n! "err")) (.id (n! "nil"))) (.cons
      (.expr (.call (.sel (.id (n! "log")) (n! "Fatal")) (.cons (.id (n! "err")) .nil) false)) .nil) .nil) .nil))))))))))

def genConst : Decl :=
  .func 0 false 0 (n! "genConst") (.cons (n! "w") (.qual (n! "io") (n! "Writer")) (.cons (n! "name") (.name (n! "string")) (.cons (n! "data") (.slice (.name (n! "uint64"))) .nil))) .nil (.cons
    (.expr (.call (.sel (.id (n! "fmt")) (n! "Fprintf")) (.cons (.id (n! "w")) (.cons (.str [99, 111, 110, 115, 116, 32, 37, 115, 32, 61, 34, 34, 43, 10]) (.cons (.id (n! "name")) .nil))) false)) (.cons
    (.range (n! "i") (n! "v") (.id (n! "data")) (.cons
      (.ifs .skip (.bin .gt (.id (n! "i")) (.int 0)) (.cons
        (.ifs .skip (.bin .eq (.bin .rem (.id (n! "i")) (.int 2)) (.int 0)) (.cons
          (.expr (.call (.sel (.id (n! "fmt")) (n! "Fprint")) (.cons (.id (n! "w")) (.cons (.str [43, 10]) .nil)) false)) .nil) (.cons
          (.expr (.call (.sel (.id (n! "fmt")) (n! "Fprint")) (.cons (.id (n! "w")) (.cons (.str [43]) .nil)) false)) .nil)) .nil) .nil) (.cons
      (.ifs .skip (.bin .eq (.bin .rem (.id (n! "i")) (.int 16)) (.int 0)) (.cons
        (.expr (.call (.sel (.id (n! "fmt")) (n! "Fprintf")) (.cons (.id (n! "w")) (.cons (.str [47, 47, 37, 100, 10]) (.cons (.id (n! "i")) .nil))) false)) .nil) .nil) (.cons
      (.expr (.call (.sel (.id (n! "fmt")) (n! "Fprint")) (.cons (.id (n! "w")) (.cons (.str [34]) .nil)) false)) (.cons
      (.expr (.call (.id (n! "writeU64LE")) (.cons (.id (n! "w")) (.cons (.id (n! "v")) .nil)) false)) (.cons
      (.expr (.call (.sel (.id (n! "fmt")) (n! "Fprint")) (.cons (.id (n! "w")) (.cons (.str [34]) .nil)) false)) .nil)))))) (.cons
    (.expr (.call (.sel (.id (n! "fmt")) (n! "Fprint")) (.cons (.id (n! "w")) (.cons (.str [10, 10]) .nil)) false)) .nil)))

def genVar : Decl :=
  .func 0 false 0 (n! "genVar") (.cons (n! "w") (.qual (n! "io") (n! "Writer")) (.cons (n! "name") (.name (n! "string")) (.cons (n! "data") (.slice (.name (n! "uint64"))) .nil))) .nil (.cons
    (.expr (.call (.sel (.id (n! "fmt")) (n! "Fprintf")) (.cons (.id (n! "w")) (.cons (.str [118, 97, 114, 32, 37, 115, 32, 61, 91, 46, 46, 46, 93, 117, 105, 110, 116, 54, 52, 123, 10]) (.cons (.id (n! "name")) .nil))) false)) (.cons
    (.range (n! "i") (n! "v") (.id (n! "data")) (.cons
      (.ifs .skip (.bin .gt (.id (n! "i")) (.int 0)) (.cons
        (.ifs .skip (.bin .eq (.bin .rem (.id (n! "i")) (.int 4)) (.int 0)) (.cons
          (.expr (.call (.sel (.id (n! "fmt")) (n! "Fprint")) (.cons (.id (n! "w")) (.cons (.str [10]) .nil)) false)) .nil) .nil) .nil) .nil) (.cons
      (.ifs .skip (.bin .eq (.bin .rem (.id (n! "i")) (.int 16)) (.int 0)) (.cons
        (.expr (.call (.sel (.id (n! "fmt")) (n! "Fprintf")) (.cons (.id (n! "w")) (.cons (.str [47, 47, 37, 100, 10]) (.cons (.id (n! "i")) .nil))) false)) .nil) .nil) (.cons
      (.expr (.call (.sel (.id (n! "fmt")) (n! "Fprintf")) (.cons (.id (n! "w")) (.cons (.str [48, 120, 37, 48, 49, 54, 120, 44]) (.cons (.id (n! "v")) .nil))) false)) .nil)))) (.cons
    (.expr (.call (.sel (.id (n! "fmt")) (n! "Fprint")) (.cons (.id (n! "w")) (.cons (.str [125, 10, 10]) .nil)) false)) .nil)))

def writeU64LE : Decl :=
  .func 0 false 0 (n! "writeU64LE") (.cons (n! "w") (.qual (n! "io") (n! "Writer")) (.cons (n! "v") (.name (n! "uint64")) .nil)) .nil (.cons
    (.define [n! "b"] (.cons (.call (.id (n! "make")) (.cons (.ty (.slice (.name (n! "byte")))) (.cons (.int 8) .nil)) false) .nil)) (.cons
    (.expr (.call (.sel (.sel (.id (n! "binary")) (n! "LittleEndian")) (n! "PutUint64")) (.cons (.id (n! "b")) (.cons (.id (n! "v")) .nil)) false)) (.cons
    (.define [n! "h"] (.cons (.call (.sel (.id (n! "hex")) (n! "FromBytes")) (.cons (.id (n! "b")) .nil) false) .nil)) (.cons
    (.for (.define [n! "i"] (.cons (.int 0) .nil)) (.bin .lt (.id (n! "i")) (.int 16)) (.opAssign .add (.id (n! "i")) (.int 2)) (.cons
      (.expr (.call (.sel (.id (n! "fmt")) (n! "Fprint")) (.cons (.id (n! "w")) (.cons (.bin .add (.str [92, 120]) (.slc (.id (n! "h")) (.id (n! "i")) (.bin .add (.id (n! "i")) (.int 2)))) .nil)) false)) .nil)) .nil))))

def buildCirculantTable : Decl :=
  .func 0 false 0 (n! "buildCirculantTable") .nil .nil (.cons
    (.for (.define [n! "x"] (.cons (.int 0) .nil)) (.bin .lt (.id (n! "x")) (.int 256)) (.opAssign .add (.id (n! "x")) (.int 1)) (.cons
      (.define [n! "v1"] (.cons (.call (.id (n! "uint64")) (.cons (.idx (.id (n! "sBox")) (.id (n! "x"))) .nil) false) .nil)) (.cons
      (.define [n! "v2"] (.cons (.bin .shl (.id (n! "v1")) (.int 1)) .nil)) (.cons
      (.ifs .skip (.bin .ge (.id (n! "v2")) (.int 256)) (.cons
        (.opAssign .xor (.id (n! "v2")) (.id (n! "gfPoly"))) .nil) .nil) (.cons
      (.define [n! "v4"] (.cons (.bin .shl (.id (n! "v2")) (.int 1)) .nil)) (.cons
      (.ifs .skip (.bin .ge (.id (n! "v4")) (.int 256)) (.cons
        (.opAssign .xor (.id (n! "v4")) (.id (n! "gfPoly"))) .nil) .nil) (.cons
      (.define [n! "v5"] (.cons (.bin .xor (.id (n! "v4")) (.id (n! "v1"))) .nil)) (.cons
      (.define [n! "v8"] (.cons (.bin .shl (.id (n! "v4")) (.int 1)) .nil)) (.cons
      (.ifs .skip (.bin .ge (.id (n! "v8")) (.int 256)) (.cons
        (.opAssign .xor (.id (n! "v8")) (.id (n! "gfPoly"))) .nil) .nil) (.cons
      (.define [n! "v9"] (.cons (.bin .xor (.id (n! "v8")) (.id (n! "v1"))) .nil)) (.cons
      (.assign (.cons (.idx (.id (n! "ct")) (.id (n! "x"))) .nil) (.cons (.bin .or (.bin .or (.bin .or (.bin .or (.bin .or (.bin .or (.bin .or (.bin .shl (.id (n! "v1")) (.int 56)) (.bin .shl (.id (n! "v1")) (.int 48))) (.bin .shl (.id (n! "v4")) (.int 40))) (.bin .shl (.id (n! "v1")) (.int 32))) (.bin .shl (.id (n! "v8")) (.int 24))) (.bin .shl (.id (n! "v5")) (.int 16))) (.bin .shl (.id (n! "v2")) (.int 8))) (.id (n! "v9"))) .nil)) (.cons
      (.for (.define [n! "t"] (.cons (.int 1) .nil)) (.bin .lt (.id (n! "t")) (.int 8)) (.opAssign .add (.id (n! "t")) (.int 1)) (.cons
        (.assign (.cons (.idx (.id (n! "ct")) (.bin .or (.bin .shl (.id (n! "t")) (.int 8)) (.id (n! "x")))) .nil) (.cons (.call (.sel (.id (n! "bits")) (n! "RotateLeft64")) (.cons (.idx (.id (n! "ct")) (.bin .or (.bin .shl (.bin .sub (.id (n! "t")) (.int 1)) (.int 8)) (.id (n! "x")))) (.cons (.un .neg (.int 8)) .nil)) false) .nil)) .nil)) .nil)))))))))))) .nil)

def buildRoundConstants : Decl :=
  .func 0 false 0 (n! "buildRoundConstants") .nil .nil (.cons
    (.for (.define [n! "r"] (.cons (.int 0) .nil)) (.bin .lt (.id (n! "r")) (.id (n! "rounds"))) (.opAssign .add (.id (n! "r")) (.int 1)) (.cons
      (.define [n! "r8"] (.cons (.bin .shl (.id (n! "r")) (.int 3)) .nil)) (.cons
      (.assign (.cons (.idx (.id (n! "rc")) (.id (n! "r"))) .nil) (.cons (.bin .xor (.bin .xor (.bin .xor (.bin .xor (.bin .xor (.bin .xor (.bin .xor (.bin .and (.idx (.id (n! "ct")) (.id (n! "r8"))) (.int 18374686479671623680)) (.bin .and (.idx (.id (n! "ct")) (.bin .or (.bin .shl (.int 1) (.int 8)) (.bin .add (.id (n! "r8")) (.int 1)))) (.int 71776119061217280))) (.bin .and (.idx (.id (n! "ct")) (.bin .or (.bin .shl (.int 2) (.int 8)) (.bin .add (.id (n! "r8")) (.int 2)))) (.int 280375465082880))) (.bin .and (.idx (.id (n! "ct")) (.bin .or (.bin .shl (.int 3) (.int 8)) (.bin .add (.id (n! "r8")) (.int 3)))) (.int 1095216660480))) (.bin .and (.idx (.id (n! "ct")) (.bin .or (.bin .shl (.int 4) (.int 8)) (.bin .add (.id (n! "r8")) (.int 4)))) (.int 4278190080))) (.bin .and (.idx (.id (n! "ct")) (.bin .or (.bin .shl (.int 5) (.int 8)) (.bin .add (.id (n! "r8")) (.int 5)))) (.int 16711680))) (.bin .and (.idx (.id (n! "ct")) (.bin .or (.bin .shl (.int 6) (.int 8)) (.bin .add (.id (n! "r8")) (.int 6)))) (.int 65280))) (.bin .and (.idx (.id (n! "ct")) (.bin .or (.bin .shl (.int 7) (.int 8)) (.bin .add (.id (n! "r8")) (.int 7)))) (.int 255))) .nil)) .nil))) .nil)

/-- The syntax tree. -/
def file : File := ⟨n! "main", [[98, 121, 116, 101, 115], [101, 110, 99, 111, 100, 105, 110, 103, 47, 98, 105, 110, 97, 114, 121], [102, 109, 116], [103, 111, 47, 102, 111, 114, 109, 97, 116], [105, 111], [108, 111, 103], [109, 97, 116, 104, 47, 98, 105, 116, 115], [111, 115], [103, 105, 116, 104, 117, 98, 46, 99, 111, 109, 47, 103, 110, 97, 98, 103, 105, 98, 47, 103, 110, 97, 98, 108, 105, 98, 45, 103, 111, 47, 101, 110, 99, 111, 100, 105, 110, 103, 47, 104, 101, 120]], [
  (.const (n! "rounds") (.int 10)),
  (.const (n! "gfPoly") (.int 285)),
  (.const (n! "sBox") (.bin .add (.bin .add (.bin .add (.bin .add (.bin .add (.bin .add (.bin .add (.bin .add (.bin .add (.bin .add (.bin .add (.bin .add (.bin .add (.bin .add (.bin .add (.bin .add (.str []) (.str [24, 35, 198, 232, 135, 184, 1, 79, 54, 166, 210, 245, 121, 111, 145, 82])) (.str [96, 188, 155, 142, 163, 12, 123, 53, 29, 224, 215, 194, 46, 75, 254, 87])) (.str [21, 119, 55, 229, 159, 240, 74, 218, 88, 201, 41, 10, 177, 160, 107, 133])) (.str [189, 93, 16, 244, 203, 62, 5, 103, 228, 39, 65, 139, 167, 125, 149, 216])) (.str [251, 238, 124, 102, 221, 23, 71, 158, 202, 45, 191, 7, 173, 90, 131, 51])) (.str [99, 2, 170, 113, 200, 25, 73, 217, 242, 227, 91, 136, 154, 38, 50, 176])) (.str [233, 15, 213, 128, 190, 205, 52, 72, 255, 122, 144, 95, 32, 104, 26, 174])) (.str [180, 84, 147, 34, 100, 241, 115, 18, 64, 8, 195, 236, 219, 161, 141, 61])) (.str [151, 0, 207, 43, 118, 130, 214, 27, 181, 175, 106, 80, 69, 243, 48, 239])) (.str [63, 85, 162, 234, 101, 186, 47, 192, 222, 28, 253, 77, 146, 117, 6, 138])) (.str [178, 230, 14, 31, 98, 212, 168, 150, 249, 197, 37, 89, 132, 114, 57, 76])) (.str [94, 120, 56, 140, 209, 165, 226, 97, 179, 33, 156, 30, 67, 199, 252, 4])) (.str [81, 153, 109, 13, 250, 223, 126, 36, 59, 171, 206, 17, 143, 78, 183, 235])) (.str [60, 129, 148, 247, 185, 19, 44, 211, 231, 110, 196, 3, 86, 68, 127, 169])) (.str [42, 187, 193, 83, 220, 11, 157, 108, 49, 116, 246, 70, 172, 137, 20, 225])) (.str [22, 58, 105, 9, 112, 182, 208, 237, 204, 66, 152, 164, 40, 92, 248, 134]))),
  (.var (n! "header") .none (.call (.ty (.slice (.name (n! "byte")))) (.cons (.str [47, 47, 32, 67, 111, 112, 121, 114, 105, 103, 104, 116, 32, 50, 48, 50, 51, 32, 103, 110, 97, 98, 103, 105, 98, 10, 47, 47, 32, 84, 104, 105, 115, 32, 83, 111, 117, 114, 99, 101, 32, 67, 111, 100, 101, 32, 70, 111, 114, 109, 32, 105, 115, 32, 115, 117, 98, 106, 101, 99, 116, 32, 116, 111, 32, 116, 104, 101, 32, 116, 101, 114, 109, 115, 32, 111, 102, 32, 116, 104, 101, 32, 77, 111, 122, 105, 108, 108, 97, 32, 80, 117, 98, 108, 105, 99, 32, 76, 105, 99, 101, 110, 115, 101, 32, 118, 50, 46, 48, 10, 10, 47, 47, 32, 67, 111, 100, 101, 32, 103, 101, 110, 101, 114, 97, 116, 101, 100, 32, 98, 121, 32, 103, 111, 32, 114, 117, 110, 32, 109, 97, 107, 101, 95, 116, 97, 98, 108, 101, 115, 46, 103, 111, 46, 32, 68, 79, 32, 78, 79, 84, 32, 69, 68, 73, 84, 46, 10, 10, 112, 97, 99, 107, 97, 103, 101, 32, 119, 104, 105, 114, 108, 112, 111, 111, 108, 10, 10]) .nil) false)),
  (.var (n! "rc") .none (.comp (.array (.id (n! "rounds")) (.name (n! "uint64"))) .nil)),
  (.var (n! "ct") .none (.comp (.array (.bin .mul (.int 8) (.int 256)) (.name (n! "uint64"))) .nil)),
  main,
  genConst,
  genVar,
  writeU64LE,
  buildCirculantTable,
  buildRoundConstants]⟩

/-- The parser finds this tree in the text. -/
theorem parsed : parse src = some file := by kernel_rfl

end Source.MakeTables
