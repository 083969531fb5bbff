import Verif.Lang.HashCode
import Verif.Source.Fletcher16
import Verif.Source.Fletcher32
import Verif.Source.Fletcher64

/-!
# The code of package `fletcher`: its three files
-/
namespace Source.Fletcher
open GoLang

abbrev path : Name := n! "github.com/gnabgib/gnablib-go/checksum/fletcher"

def files : List File := [Fletcher16.file, Fletcher32.file, Fletcher64.file]

/-- The package. -/
def pkg : Pkg :=
  ⟨path, files.flatMap fun f => importTable f.imports, files.flatMap File.decls,
    [(n! "size16", .const 2), (n! "size32", .const 4), (n! "size64", .const 8)], []⟩

theorem loaded : loadPkg stdlib path files [] = some pkg := by kernel_rfl

theorem text : loadText path [Fletcher16.src, Fletcher32.src, Fletcher64.src] [] = some pkg := by
  simp only [loadText, parseAll, Fletcher16.parsed, Fletcher32.parsed, Fletcher64.parsed, Option.bind_some, Option.map_some]
  exact loaded

end Source.Fletcher
