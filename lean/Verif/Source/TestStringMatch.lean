import Verif.Lang.Parser

/-!
# Source of test/StringMatch.go

The text of the file, line by line without line ends, and its syntax tree as found by the parser. Generated by `tools/source.py`.
-/
namespace Source.TestStringMatch
open GoLang

/-- The text. -/
def src : List String := [
r#"// Copyright 2023 gnabgib"#,
r#"// This Source Code Form is subject to the terms of the Mozilla Public License v2.0"#,
r#""#,
r#"package test"#,
r#""#,
r#"import ("#,
r#"	"strings""#,
r#"	"testing""#,
r#")"#,
r#""#,
r#"// Compares two strings, creates errors if they differ in length, and shows"#,
r#"// the values side by side with style markers to show character mismatch."#,
r#"// Note this does no UTF8 folding etc, the strings are to be byte-identical"#,
r#"func StringMatch(t *testing.T, expect, found string) {"#,
r#"	StringMatchTitle(t, "", "", expect, found)"#,
r#"}"#,
r#""#,
r#"func StringMatchTitle(t *testing.T, title, prefix, expect, found string) {"#,
r#"	//Simple case.. the byte strings are identical (yay)"#,
r#"	if found == expect {"#,
r#"		return"#,
r#"	}"#,
r#"	if len(found) != len(expect) {"#,
r#"		t.Errorf("Expected %d chars, got %d", len(expect), len(found))"#,
r#"	}"#,
r#""#,
r#"	eRunes := strings.Split(expect, "")"#,
r#"	fRunes := strings.Split(found, "")"#,
r#""#,
r#"	nRunes := len(eRunes)"#,
r#"	nBytes := len(expect)"#,
r#"	if len(found) > nBytes {"#,
r#"		nBytes = len(found)"#,
r#"		nRunes = len(fRunes)"#,
r#"	}"#,
r#""#,
r#"	//Make a marker line, only needs one char/rune (some runes can be >1 byte)"#,
r#"	// and one extra to show the end as being the issue"#,
r#"	marker := make([]byte, nRunes+1)"#,
r#""#,
r#"	first := findFirstMismatch(eRunes, fRunes, marker)"#,
r#"	last := findLastMismatch(eRunes, fRunes, marker, first)"#,
r#"	fullTitle:="""#,
r#"	if len(title)>0 {"#,
r#"		fullTitle=title+": ""#,
r#"	}"#,
r#"	t.Errorf("%sExpect, found:\n%s%s␃\n%s%s␃\n%s%s","#,
r#"		fullTitle,"#,
r#"		prefix,"#,
r#"		renderText(expect, nBytes-len(expect), first, last),"#,
r#"		prefix,"#,
r#"		renderText(found, nBytes-len(found), first, last),"#,
r#"		prefix,"#,
r#"		marker)"#,
r#"}"#,
r#""#,
r#"// The first differing rune between the two arrays"#,
r#"func findFirstMismatch(e, f []string, marker []byte) int {"#,
r#"	//Note the runes come in as strings, but we know they're just runes"#,
r#"	// due to the rule of Split on empty delimiter"#,
r#"	i := 0"#,
r#"	for ; i < len(e); i++ {"#,
r#"		if i >= len(f) || e[i] != f[i] {"#,
r#"			break"#,
r#"		}"#,
r#"		switch {"#,
r#"		case e[i] == "\x7f":"#,
r#"			//Duplicate del in marker"#,
r#"			marker[i] = '\x7f'"#,
r#"		case int(e[i][0]) < 32:"#,
r#"			//If the char is control (other than above), copy it to output"#,
r#"			marker[i] = byte(e[i][0])"#,
r#"		default:"#,
r#"			marker[i] = '-'"#,
r#"		}"#,
r#"	}"#,
r#"	marker[i] = '^'"#,
r#"	return i"#,
r#"}"#,
r#""#,
r#"// The last differing rune between two arrays, returned as negative offset from the end"#,
r#"func findLastMismatch(eRunes, fRunes []string, marker []byte, first int) int {"#,
r#"	markerDelta := len(marker) - len(eRunes) - 1"#,
r#"	e := len(eRunes) - 1"#,
r#"	for f := len(fRunes) - 1; e > first && f > first; {"#,
r#"		//Marker is 1 longer than eRunes"#,
r#"		if eRunes[e] != fRunes[f] {"#,
r#"			break"#,
r#"		}"#,
r#"		marker[e+markerDelta] = '-'"#,
r#"		e--"#,
r#"		f--"#,
r#"	}"#,
r#"	//Fill in spaces between markers"#,
r#"	for i := e - 1 + markerDelta; i > first; i-- {"#,
r#"		marker[i] = ' '"#,
r#"	}"#,
r#"	//Mark the mismatch"#,
r#"	marker[e+markerDelta] = '^'"#,
r#"	return e - len(eRunes) + 1"#,
r#"}"#,
r#""#,
r#"// Render a text line, which is equal to length of text + delta (which"#,
r#"// is >0 iff found is longer and equal to the length-diff).  Up until firstDiff"#,
r#"// the line matches expect then there are different/missing char indicators"#,
r#"func renderText(t string, blankChars, markStart, markEndOffset int) string {"#,
r#"	//Return length is at least expected length"#,
r#"	n := len(t)"#,
r#"	//Add 4 characters (each) for start/stop style"#,
r#"	n += 4 + 4"#,
r#"	//Add 2 bytes for each, because the missing char maker (·) is 2 bytes"#,
r#"	n += blankChars * 2"#,
r#""#,
r#"	//Convert offset into position"#,
r#"	markEnd := len(t) + markEndOffset"#,
r#""#,
r#"	ret := make([]byte, n)"#,
r#"	//Copy in starting matching text"#,
r#"	copy(ret, t[0:markStart])"#,
r#"	//Add start change marker (invert fg/bg colours)"#,
r#"	copy(ret[markStart:], "\x1b[7m")"#,
r#"	//Add the diff text"#,
r#"	copy(ret[markStart+4:], t[markStart:markEnd])"#,
r#"	//Add any blanks"#,
r#"	for i := 0; i < blankChars*2; i += 2 {"#,
r#"		ret[markEnd+4+i] = '\xc2'"#,
r#"		ret[markEnd+4+i+1] = '\xb7'"#,
r#"	}"#,
r#"	//Add end change marker"#,
r#"	copy(ret[markEnd+4+blankChars*2:], "\x1b[0m")"#,
r#"	//Add ending content"#,
r#"	copy(ret[markEnd+8+blankChars*2:], t[markEnd:])"#,
r#""#,
r#"	return string(ret)"#,
r#"}"#,
r#""#]

def StringMatch : Decl :=
  .func 0 false 0 (n! "StringMatch") (.cons (n! "t") (.ptr (.qual (n! "testing") (n! "T"))) (.cons (n! "expect") (.name (n! "string")) (.cons (n! "found") (.name (n! "string")) .nil))) .nil (.cons
    (.expr (.call (.id (n! "StringMatchTitle")) (.cons (.id (n! "t")) (.cons (.str []) (.cons (.str []) (.cons (.id (n! "expect")) (.cons (.id (n! "found")) .nil))))) false)) .nil)

def StringMatchTitle : Decl :=
  .func 0 false 0 (n! "StringMatchTitle") (.cons (n! "t") (.ptr (.qual (n! "testing") (n! "T"))) (.cons (n! "title") (.name (n! "string")) (.cons (n! "prefix") (.name (n! "string")) (.cons (n! "expect") (.name (n! "string")) (.cons (n! "found") (.name (n! "string")) .nil))))) .nil (.cons
    (.ifs .skip (.bin .eq (.id (n! "found")) (.id (n! "expect"))) (.cons
      (.ret .nil) .nil) .nil) (.cons
    (.ifs .skip (.bin .ne (.call (.id (n! "len")) (.cons (.id (n! "found")) .nil) false) (.call (.id (n! "len")) (.cons (.id (n! "expect")) .nil) false)) (.cons
      (.expr (.call (.sel (.id (n! "t")) (n! "Errorf")) (.cons (.str [69, 120, 112, 101, 99, 116, 101, 100, 32, 37, 100, 32, 99, 104, 97, 114, 115, 44, 32, 103, 111, 116, 32, 37, 100]) (.cons (.call (.id (n! "len")) (.cons (.id (n! "expect")) .nil) false) (.cons (.call (.id (n! "len")) (.cons (.id (n! "found")) .nil) false) .nil))) false)) .nil) .nil) (.cons
    (.define [n! "eRunes"] (.cons (.call (.sel (.id (n! "strings")) (n! "Split")) (.cons (.id (n! "expect")) (.cons (.str []) .nil)) false) .nil)) (.cons
    (.define [n! "fRunes"] (.cons (.call (.sel (.id (n! "strings")) (n! "Split")) (.cons (.id (n! "found")) (.cons (.str []) .nil)) false) .nil)) (.cons
    (.define [n! "nRunes"] (.cons (.call (.id (n! "len")) (.cons (.id (n! "eRunes")) .nil) false) .nil)) (.cons
    (.define [n! "nBytes"] (.cons (.call (.id (n! "len")) (.cons (.id (n! "expect")) .nil) false) .nil)) (.cons
    (.ifs .skip (.bin .gt (.call (.id (n! "len")) (.cons (.id (n! "found")) .nil) false) (.id (n! "nBytes"))) (.cons
      (.assign (.cons (.id (n! "nBytes")) .nil) (.cons (.call (.id (n! "len")) (.cons (.id (n! "found")) .nil) false) .nil)) (.cons
      (.assign (.cons (.id (n! "nRunes")) .nil) (.cons (.call (.id (n! "len")) (.cons (.id (n! "fRunes")) .nil) false) .nil)) .nil)) .nil) (.cons
    (.define [n! "marker"] (.cons (.call (.id (n! "make")) (.cons (.ty (.slice (.name (n! "byte")))) (.cons (.bin .add (.id (n! "nRunes")) (.int 1)) .nil)) false) .nil)) (.cons
    (.define [n! "first"] (.cons (.call (.id (n! "findFirstMismatch")) (.cons (.id (n! "eRunes")) (.cons (.id (n! "fRunes")) (.cons (.id (n! "marker")) .nil))) false) .nil)) (.cons
    (.define [n! "last"] (.cons (.call (.id (n! "findLastMismatch")) (.cons (.id (n! "eRunes")) (.cons (.id (n! "fRunes")) (.cons (.id (n! "marker")) (.cons (.id (n! "first")) .nil)))) false) .nil)) (.cons
    (.define [n! "fullTitle"] (.cons (.str []) .nil)) (.cons
    (.ifs .skip (.bin .gt (.call (.id (n! "len")) (.cons (.id (n! "title")) .nil) false) (.int 0)) (.cons
      (.assign (.cons (.id (n! "fullTitle")) .nil) (.cons (.bin .add (.id (n! "title")) (.str [58, 32])) .nil)) .nil) .nil) (.cons
    (.expr (.call (.sel (.id (n! "t")) (n! "Errorf")) (.cons (.str [37, 115, 69, 120, 112, 101, 99, 116, 44, 32, 102, 111, 117, 110, 100, 58, 10, 37, 115, 37, 115, 226, 144, 131, 10, 37, 115, 37, 115, 226, 144, 131, 10, 37, 115, 37, 115]) (.cons (.id (n! "fullTitle")) (.cons (.id (n! "prefix")) (.cons (.call (.id (n! "renderText")) (.cons (.id (n! "expect")) (.cons (.bin .sub (.id (n! "nBytes")) (.call (.id (n! "len")) (.cons (.id (n! "expect")) .nil) false)) (.cons (.id (n! "first")) (.cons (.id (n! "last")) .nil)))) false) (.cons (.id (n! "prefix")) (.cons (.call (.id (n! "renderText")) (.cons (.id (n! "found")) (.cons (.bin .sub (.id (n! "nBytes")) (.call (.id (n! "len")) (.cons (.id (n! "found")) .nil) false)) (.cons (.id (n! "first")) (.cons (.id (n! "last")) .nil)))) false) (.cons (.id (n! "prefix")) (.cons (.id (n! "marker")) .nil)))))))) false)) .nil)))))))))))))

def findFirstMismatch : Decl :=
  .func 0 false 0 (n! "findFirstMismatch") (.cons (n! "e") (.slice (.name (n! "string"))) (.cons (n! "f") (.slice (.name (n! "string"))) (.cons (n! "marker") (.slice (.name (n! "byte"))) .nil))) (.cons 0 (.name (n! "int")) .nil) (.cons
    (.define [n! "i"] (.cons (.int 0) .nil)) (.cons
    (.for .skip (.bin .lt (.id (n! "i")) (.call (.id (n! "len")) (.cons (.id (n! "e")) .nil) false)) (.opAssign .add (.id (n! "i")) (.int 1)) (.cons
      (.ifs .skip (.bin .lor (.bin .ge (.id (n! "i")) (.call (.id (n! "len")) (.cons (.id (n! "f")) .nil) false)) (.bin .ne (.idx (.id (n! "e")) (.id (n! "i"))) (.idx (.id (n! "f")) (.id (n! "i"))))) (.cons
        .brk .nil) .nil) (.cons
      (.switch .none (.cons (.cons (.bin .eq (.idx (.id (n! "e")) (.id (n! "i"))) (.str [127])) .nil) (.cons
        (.assign (.cons (.idx (.id (n! "marker")) (.id (n! "i"))) .nil) (.cons (.int 127) .nil)) .nil) (.cons (.cons (.bin .lt (.call (.id (n! "int")) (.cons (.idx (.idx (.id (n! "e")) (.id (n! "i"))) (.int 0)) .nil) false) (.int 32)) .nil) (.cons
        (.assign (.cons (.idx (.id (n! "marker")) (.id (n! "i"))) .nil) (.cons (.call (.id (n! "byte")) (.cons (.idx (.idx (.id (n! "e")) (.id (n! "i"))) (.int 0)) .nil) false) .nil)) .nil) (.cons .nil (.cons
        (.assign (.cons (.idx (.id (n! "marker")) (.id (n! "i"))) .nil) (.cons (.int 45) .nil)) .nil) .nil)))) .nil))) (.cons
    (.assign (.cons (.idx (.id (n! "marker")) (.id (n! "i"))) .nil) (.cons (.int 94) .nil)) (.cons
    (.ret (.cons (.id (n! "i")) .nil)) .nil))))

def findLastMismatch : Decl :=
  .func 0 false 0 (n! "findLastMismatch") (.cons (n! "eRunes") (.slice (.name (n! "string"))) (.cons (n! "fRunes") (.slice (.name (n! "string"))) (.cons (n! "marker") (.slice (.name (n! "byte"))) (.cons (n! "first") (.name (n! "int")) .nil)))) (.cons 0 (.name (n! "int")) .nil) (.cons
    (.define [n! "markerDelta"] (.cons (.bin .sub (.bin .sub (.call (.id (n! "len")) (.cons (.id (n! "marker")) .nil) false) (.call (.id (n! "len")) (.cons (.id (n! "eRunes")) .nil) false)) (.int 1)) .nil)) (.cons
    (.define [n! "e"] (.cons (.bin .sub (.call (.id (n! "len")) (.cons (.id (n! "eRunes")) .nil) false) (.int 1)) .nil)) (.cons
    (.for (.define [n! "f"] (.cons (.bin .sub (.call (.id (n! "len")) (.cons (.id (n! "fRunes")) .nil) false) (.int 1)) .nil)) (.bin .land (.bin .gt (.id (n! "e")) (.id (n! "first"))) (.bin .gt (.id (n! "f")) (.id (n! "first")))) .skip (.cons
      (.ifs .skip (.bin .ne (.idx (.id (n! "eRunes")) (.id (n! "e"))) (.idx (.id (n! "fRunes")) (.id (n! "f")))) (.cons
        .brk .nil) .nil) (.cons
      (.assign (.cons (.idx (.id (n! "marker")) (.bin .add (.id (n! "e")) (.id (n! "markerDelta")))) .nil) (.cons (.int 45) .nil)) (.cons
      (.opAssign .sub (.id (n! "e")) (.int 1)) (.cons
      (.opAssign .sub (.id (n! "f")) (.int 1)) .nil))))) (.cons
    (.for (.define [n! "i"] (.cons (.bin .add (.bin .sub (.id (n! "e")) (.int 1)) (.id (n! "markerDelta"))) .nil)) (.bin .gt (.id (n! "i")) (.id (n! "first"))) (.opAssign .sub (.id (n! "i")) (.int 1)) (.cons
      (.assign (.cons (.idx (.id (n! "marker")) (.id (n! "i"))) .nil) (.cons (.int 32) .nil)) .nil)) (.cons
    (.assign (.cons (.idx (.id (n! "marker")) (.bin .add (.id (n! "e")) (.id (n! "markerDelta")))) .nil) (.cons (.int 94) .nil)) (.cons
    (.ret (.cons (.bin .add (.bin .sub (.id (n! "e")) (.call (.id (n! "len")) (.cons (.id (n! "eRunes")) .nil) false)) (.int 1)) .nil)) .nil))))))

def renderText : Decl :=
  .func 0 false 0 (n! "renderText") (.cons (n! "t") (.name (n! "string")) (.cons (n! "blankChars") (.name (n! "int")) (.cons (n! "markStart") (.name (n! "int")) (.cons (n! "markEndOffset") (.name (n! "int")) .nil)))) (.cons 0 (.name (n! "string")) .nil) (.cons
    (.define [n! "n"] (.cons (.call (.id (n! "len")) (.cons (.id (n! "t")) .nil) false) .nil)) (.cons
    (.opAssign .add (.id (n! "n")) (.bin .add (.int 4) (.int 4))) (.cons
    (.opAssign .add (.id (n! "n")) (.bin .mul (.id (n! "blankChars")) (.int 2))) (.cons
    (.define [n! "markEnd"] (.cons (.bin .add (.call (.id (n! "len")) (.cons (.id (n! "t")) .nil) false) (.id (n! "markEndOffset"))) .nil)) (.cons
    (.define [n! "ret"] (.cons (.call (.id (n! "make")) (.cons (.ty (.slice (.name (n! "byte")))) (.cons (.id (n! "n")) .nil)) false) .nil)) (.cons
    (.expr (.call (.id (n! "copy")) (.cons (.id (n! "ret")) (.cons (.slc (.id (n! "t")) (.int 0) (.id (n! "markStart"))) .nil)) false)) (.cons
    (.expr (.call (.id (n! "copy")) (.cons (.slc (.id (n! "ret")) (.id (n! "markStart")) .none) (.cons (.str [27, 91, 55, 109]) .nil)) false)) (.cons
    (.expr (.call (.id (n! "copy")) (.cons (.slc (.id (n! "ret")) (.bin .add (.id (n! "markStart")) (.int 4)) .none) (.cons (.slc (.id (n! "t")) (.id (n! "markStart")) (.id (n! "markEnd"))) .nil)) false)) (.cons
    (.for (.define [n! "i"] (.cons (.int 0) .nil)) (.bin .lt (.id (n! "i")) (.bin .mul (.id (n! "blankChars")) (.int 2))) (.opAssign .add (.id (n! "i")) (.int 2)) (.cons
      (.assign (.cons (.idx (.id (n! "ret")) (.bin .add (.bin .add (.id (n! "markEnd")) (.int 4)) (.id (n! "i")))) .nil) (.cons (.int 194) .nil)) (.cons
      (.assign (.cons (.idx (.id (n! "ret")) (.bin .add (.bin .add (.bin .add (.id (n! "markEnd")) (.int 4)) (.id (n! "i"))) (.int 1))) .nil) (.cons (.int 183) .nil)) .nil))) (.cons
    (.expr (.call (.id (n! "copy")) (.cons (.slc (.id (n! "ret")) (.bin .add (.bin .add (.id (n! "markEnd")) (.int 4)) (.bin .mul (.id (n! "blankChars")) (.int 2))) .none) (.cons (.str [27, 91, 48, 109]) .nil)) false)) (.cons
    (.expr (.call (.id (n! "copy")) (.cons (.slc (.id (n! "ret")) (.bin .add (.bin .add (.id (n! "markEnd")) (.int 8)) (.bin .mul (.id (n! "blankChars")) (.int 2))) .none) (.cons (.slc (.id (n! "t")) (.id (n! "markEnd")) .none) .nil)) false)) (.cons
    (.ret (.cons (.call (.id (n! "string")) (.cons (.id (n! "ret")) .nil) false) .nil)) .nil))))))))))))

/-- The syntax tree. -/
def file : File := ⟨n! "test", [[115, 116, 114, 105, 110, 103, 115], [116, 101, 115, 116, 105, 110, 103]], [
  StringMatch,
  StringMatchTitle,
  findFirstMismatch,
  findLastMismatch,
  renderText]⟩

/-- The parser finds this tree in the text. -/
theorem parsed : parse src = some file := by kernel_rfl

end Source.TestStringMatch
