import Verif.Lang.Parser

/-!
# Source of test/HashCompare.go

The text of the file, line by line without line ends, and its syntax tree as found by the parser. Generated by `tools/source.py`.
-/
namespace Source.TestHashCompare
open GoLang

/-- The text. -/
def src : List String := [
r#"package test"#,
r#""#,
r#"import ("#,
r#"	"hash""#,
r#"	"testing""#,
r#""#,
r#"	"github.com/gnabgib/gnablib-go/encoding/hex""#,
r#")"#,
r#""#,
r#"func HashTest(t *testing.T, h hash.Hash, in []byte, expectHex string) {"#,
r#"	h.Write(in)"#,
r#"	found := h.Sum([]byte{})"#,
r#"	foundHex := hex.FromBytes(found)"#,
r#""#,
r#"	StringMatchTitle(t, "Hash("+Abbr(string(in))+")", "", expectHex, foundHex)"#,
r#"}"#,
r#""#,
r#"func HashHexTest(t *testing.T, h hash.Hash, inHex string, expectHex string) {"#,
r#"	b := hex.ToBytesFast(inHex)"#,
r#"	h.Write(b)"#,
r#"	found := h.Sum([]byte{})"#,
r#"	foundHex := hex.FromBytes(found)"#,
r#""#,
r#"	StringMatchTitle(t, "HashHex("+Abbr(inHex)+")", "", expectHex, foundHex)"#,
r#"}"#,
r#""#]

def HashTest : Decl :=
  .func 0 false 0 (n! "HashTest") (.cons (n! "t") (.ptr (.qual (n! "testing") (n! "T"))) (.cons (n! "h") (.qual (n! "hash") (n! "Hash")) (.cons (n! "in") (.slice (.name (n! "byte"))) (.cons (n! "expectHex") (.name (n! "string")) .nil)))) .nil (.cons
    (.expr (.call (.sel (.id (n! "h")) (n! "Write")) (.cons (.id (n! "in")) .nil) false)) (.cons
    (.define [n! "found"] (.cons (.call (.sel (.id (n! "h")) (n! "Sum")) (.cons (.comp (.slice (.name (n! "byte"))) .nil) .nil) false) .nil)) (.cons
    (.define [n! "foundHex"] (.cons (.call (.sel (.id (n! "hex")) (n! "FromBytes")) (.cons (.id (n! "found")) .nil) false) .nil)) (.cons
    (.expr (.call (.id (n! "StringMatchTitle")) (.cons (.id (n! "t")) (.cons (.bin .add (.bin .add (.str [72, 97, 115, 104, 40]) (.call (.id (n! "Abbr")) (.cons (.call (.id (n! "string")) (.cons (.id (n! "in")) .nil) false) .nil) false)) (.str [41])) (.cons (.str []) (.cons (.id (n! "expectHex")) (.cons (.id (n! "foundHex")) .nil))))) false)) .nil))))

def HashHexTest : Decl :=
  .func 0 false 0 (n! "HashHexTest") (.cons (n! "t") (.ptr (.qual (n! "testing") (n! "T"))) (.cons (n! "h") (.qual (n! "hash") (n! "Hash")) (.cons (n! "inHex") (.name (n! "string")) (.cons (n! "expectHex") (.name (n! "string")) .nil)))) .nil (.cons
    (.define [n! "b"] (.cons (.call (.sel (.id (n! "hex")) (n! "ToBytesFast")) (.cons (.id (n! "inHex")) .nil) false) .nil)) (.cons
    (.expr (.call (.sel (.id (n! "h")) (n! "Write")) (.cons (.id (n! "b")) .nil) false)) (.cons
    (.define [n! "found"] (.cons (.call (.sel (.id (n! "h")) (n! "Sum")) (.cons (.comp (.slice (.name (n! "byte"))) .nil) .nil) false) .nil)) (.cons
    (.define [n! "foundHex"] (.cons (.call (.sel (.id (n! "hex")) (n! "FromBytes")) (.cons (.id (n! "found")) .nil) false) .nil)) (.cons
    (.expr (.call (.id (n! "StringMatchTitle")) (.cons (.id (n! "t")) (.cons (.bin .add (.bin .add (.str [72, 97, 115, 104, 72, 101, 120, 40]) (.call (.id (n! "Abbr")) (.cons (.id (n! "inHex")) .nil) false)) (.str [41])) (.cons (.str []) (.cons (.id (n! "expectHex")) (.cons (.id (n! "foundHex")) .nil))))) false)) .nil)))))

/-- The syntax tree. -/
def file : File := ⟨n! "test", [[104, 97, 115, 104], [116, 101, 115, 116, 105, 110, 103], [103, 105, 116, 104, 117, 98, 46, 99, 111, 109, 47, 103, 110, 97, 98, 103, 105, 98, 47, 103, 110, 97, 98, 108, 105, 98, 45, 103, 111, 47, 101, 110, 99, 111, 100, 105, 110, 103, 47, 104, 101, 120]], [
  HashTest,
  HashHexTest]⟩

/-- The parser finds this tree in the text. -/
theorem parsed : parse src = some file := by kernel_rfl

end Source.TestHashCompare
