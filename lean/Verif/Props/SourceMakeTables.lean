import Verif.Code.MakeConst
import Verif.Props.MakeTables

/-!
# The source text of the generator of Whirlpool's tables, run

C99: the text of hash/whirlpool/make_tables.go, read by the parser and run by the interpreter of `Verif/Lang`, computes the numbers in the
text of hash/whirlpool/whirlpool_tables.go. C100: its `main` writes one file, what `format.Source` makes of a Go text that declares those
numbers; if `format.Source` fails, the program ends and nothing is written. C101: what `genVar` and `genConst` write for other tables.
-/
namespace Source
open GoLang GoSource

/-- The program has the generator with its text, memory begins with `mem` at the start, `math/bits` is that of the standard library, an
`int` has at least 32 bits. -/
structure GenHosts (P : Prog) (mem : List Val) : Prop where
  text : P.HasMem MakeTables.path [MakeTables.src] [] MakeTables.vars mem
  std : P.std (n! "math/bits") = stdlib (n! "math/bits")
  bits : elemN (n! "math/bits") (P.pkgs.map Pkg.path) = false
  word : 32 ≤ P.W

/-- The packages of the standard library that `main` uses, besides `math/bits`, and what it uses of them. -/
structure GenTools (P : Prog) (fmtr : List (BitVec 8) → Except (List (BitVec 8)) (List (BitVec 8))) (wr : Option (List (BitVec 8))) (fs : Nat) : Prop where
  tools : MakeTables.Tools P fmtr wr fs
  fmt : elemN (n! "fmt") (P.pkgs.map Pkg.path) = false
  bytes : elemN (n! "bytes") (P.pkgs.map Pkg.path) = false
  format : elemN (n! "go/format") (P.pkgs.map Pkg.path) = false
  os : elemN (n! "os") (P.pkgs.map Pkg.path) = false
  log : elemN (n! "log") (P.pkgs.map Pkg.path) = false

/-- The tables that the text of package whirlpool declares. -/
theorem tables_of {k : Pkg} (hk : loadText Whirlpool.path Whirlpool.texts Whirlpool.boxed = some k) :
    find (n! "rc") k.genv = some (.arr (_root_.Whirlpool.rc.map .u64)) ∧ find (n! "ct") k.genv = some (.arr (_root_.Whirlpool.ct.map .u64)) := by
  rw [Whirlpool.text] at hk
  cases hk
  exact ⟨by kernel_rfl, by kernel_rfl⟩

section
variable {P : Prog} {mem : List Val} (hP : GenHosts P mem)
include hP

/-- **C99** Whatever `ct` held before, `buildCirculantTable`, run, makes it the `ct` that the text of package whirlpool declares, and changes
nothing else in memory. -/
theorem C99_circulant {k : Pkg} (hk : loadText Whirlpool.path Whirlpool.texts Whirlpool.boxed = some k) {v : Val} (hv : find (n! "ct") k.genv = some v)
    {h : List Val} {c : List U64} (hc : h[2]? = some (.arr (c.map .u64))) (hl : c.length = 2048) :
    Returns P MakeTables.path 0 (n! "buildCirculantTable") [] h [] (h.set 2 v) := by
  have hlen : 2 < h.length := (List.getElem?_eq_some_iff.mp hc).1
  have r := MakeTables.run_circ hP.word hP.std hP.bits (n := 301) (by decide) hlen (hP.text.find MakeTables.text).1 hl
  rw [(tables_of hk).2] at hv
  cases hv
  obtain ⟨_, e⟩ := List.getElem?_eq_some_iff.mp hc
  have e2 : MakeTables.withCt h c = h := by rw [MakeTables.withCt, ← e, List.set_getElem_self]
  rw [e2] at r
  exact .one r

/-- **C99** With that `ct`, and whatever `rc` held before, `buildRoundConstants`, run, makes `rc` the one that the text of package whirlpool
declares, and changes nothing else in memory. -/
theorem C99_constants {k : Pkg} (hk : loadText Whirlpool.path Whirlpool.texts Whirlpool.boxed = some k) {v w : Val} (hv : find (n! "ct") k.genv = some v)
    (hw : find (n! "rc") k.genv = some w) {h : List Val} {a : List U64} (hc : h[2]? = some v) (ha : h[1]? = some (.arr (a.map .u64))) (hl : a.length = 10) :
    Returns P MakeTables.path 0 (n! "buildRoundConstants") [] h [] (h.set 1 w) := by
  have hlen : 2 < h.length := (List.getElem?_eq_some_iff.mp hc).1
  rw [(tables_of hk).2] at hv
  rw [(tables_of hk).1] at hw
  cases hv
  cases hw
  have r := MakeTables.run_rcs hP.word (n := 301) (by decide) hlen (hP.text.find MakeTables.text).1 hc hl
  obtain ⟨_, e⟩ := List.getElem?_eq_some_iff.mp ha
  have e2 : MakeTables.withRc h a = h := by rw [MakeTables.withRc, ← e, List.set_getElem_self]
  rw [e2] at r
  exact .one r

/-- **C99** Where the variables are when the program starts: `rc` holds 10 and `ct` 2048 numbers. -/
theorem C99_start : (∃ a : List U64, mem[1]? = some (.arr (a.map .u64)) ∧ a.length = 10) ∧ ∃ c : List U64, mem[2]? = some (.arr (c.map .u64)) ∧ c.length = 2048 := by
  rw [(hP.text.find MakeTables.text).2]
  exact ⟨⟨_, rfl, List.length_replicate ..⟩, _, rfl, List.length_replicate ..⟩

/-- **C100** There is one text `T` that declares package whirlpool with the constant `rounds` and the tables `rc` and `ct` that the text of
package whirlpool declares, and nothing else, such that `main`, run from the start with any files written before: if `format.Source`
makes `t` of `T` and the file can be written, writes `t` to whirlpool_tables.go, and nothing else, and returns; and if `format.Source`
fails, or the file cannot be written, ends the program with no file written. -/
theorem C100_main {k : Pkg} (hk : loadText Whirlpool.path Whirlpool.texts Whirlpool.boxed = some k) {rc ct : List U64}
    (hr : find (n! "rc") k.genv = some (.arr (rc.map .u64))) (hc : find (n! "ct") k.genv = some (.arr (ct.map .u64))) :
    ∃ T, readFile T = some (ascii "whirlpool", [.int (ascii "rounds") 10, .u64s (ascii "rc") (rc.map BitVec.toNat), .u64s (ascii "ct") (ct.map BitVec.toNat)]) ∧
      ∀ (fmtr : List (BitVec 8) → Except (List (BitVec 8)) (List (BitVec 8))) (wr : Option (List (BitVec 8))) (rest l : List Val) (j : Nat), GenTools P fmtr wr (mem.length + j) → rest[j]? = some (.arr l) →
        (∀ t, fmtr T = .ok t → wr = none → ∃ h', Returns P MakeTables.path 0 (n! "main") [] (mem ++ rest) [] h' ∧
          h'[mem.length + j]? = some (.arr (l ++ [.str (ascii "whirlpool_tables.go"), .str t]))) ∧
        (((∃ m, fmtr T = .error m) ∨ (∃ m, wr = some m)) → ∃ h', Panics P MakeTables.path 0 (n! "main") [] (mem ++ rest) h' ∧ h'[mem.length + j]? = some (.arr l)) := by
  obtain ⟨T, h1, h2⟩ := _root_.MakeTables.C63_file
  have hT : T = MakeTables.fullText := by
    rw [_root_.MakeTables.mainText, _root_.Whirlpool.buildCirculantTable_eq] at h1
    simp only [Res.ok_bind] at h1
    rw [_root_.Whirlpool.buildRoundConstants_eq] at h1
    simp only [Res.ok_bind] at h1
    have hh : _root_.MakeTables.header = MakeTables.head := by decide +kernel
    rw [hh] at h1
    exact (Res.ok.inj h1).symm
  have inj (a b : List U64) (h : some (Val.arr (a.map .u64)) = some (.arr (b.map .u64))) : a = b := by
    simp only [Option.some.injEq, Val.arr.injEq] at h
    exact List.map_injective_iff.mpr (fun x y e => by simpa using e) h
  have er := inj _ _ (hr.symm.trans (tables_of hk).1)
  have ec := inj _ _ (hc.symm.trans (tables_of hk).2)
  subst er ec
  refine ⟨T, h2, ?_⟩
  intro fmtr wr rest l j hG hl
  obtain ⟨hf, hm⟩ := hP.text.find MakeTables.text
  subst hm
  have hfs : (MakeTables.mem ++ rest)[MakeTables.mem.length + j]? = some (.arr l) := by
    rw [List.getElem?_append_right (by omega), Nat.add_sub_cancel_left, hl]
  have hfs' := (List.getElem?_eq_some_iff.mp hfs).1
  have r := MakeTables.run_main hG.tools hG.fmt hf hP.word hP.std hP.bits hG.bytes hG.format hG.os hG.log (h := MakeTables.mem ++ rest) rfl rfl rfl (List.length_replicate ..) (List.length_replicate ..)
    (show 3 ≤ MakeTables.mem.length + j by show 3 ≤ 3 + j; omega) hfs (n := 301) (by decide)
  rw [← hT] at r
  constructor
  · rintro t ht rfl
    rw [ht] at r
    refine ⟨_, .one r, ?_⟩
    rw [List.getElem?_append_left (by simp only [List.length_set, MakeTables.withRc, MakeTables.withCt]; exact hfs')]
    exact List.getElem?_set_self (by simp only [List.length_set, MakeTables.withRc, MakeTables.withCt]; exact hfs')
  · intro hm
    have key (x : List Val) : (MakeTables.withRc (MakeTables.withCt (MakeTables.mem ++ rest) _root_.Whirlpool.ct) _root_.Whirlpool.rc ++ x)[MakeTables.mem.length + j]? = some (.arr l) := by
      rw [List.getElem?_append_left (by simp only [List.length_set, MakeTables.withRc, MakeTables.withCt]; exact hfs'), MakeTables.withRc, MakeTables.withCt,
        List.getElem?_set_ne (show 1 ≠ MakeTables.mem.length + j by show 1 ≠ 3 + j; omega), List.getElem?_set_ne (show 2 ≠ MakeTables.mem.length + j by show 2 ≠ 3 + j; omega), hfs]
    cases hT : fmtr T with
    | error m =>
      rw [hT] at r
      exact ⟨_, .one r, key _⟩
    | ok t =>
      obtain ⟨m, hm⟩ | ⟨m, rfl⟩ := hm
      · rw [hT] at hm
        cases hm
      · rw [hT] at r
        exact ⟨_, .one r, key _⟩

/-- **C101** For every identifier there is for every table a text that declares a variable of that name with those numbers, such that
`genVar`, run with a buffer and that table, appends the text to the buffer, whatever it holds, and changes nothing else in memory. -/
theorem C101_var {name : List U8} (hn : IsIdent name) (data : List U64) : ∃ t, readDecls t = some [.u64s name (data.map BitVec.toNat)] ∧
    ∀ (fmtr : List (BitVec 8) → Except (List (BitVec 8)) (List (BitVec 8))) (wr : Option (List (BitVec 8))) (fs : Nat) (h : List Val) (b a : Nat) (w : List U8), GenTools P fmtr wr fs →
      h[b]? = some (.str w) → h[a]? = some (.arr (data.map .u64)) →
      Returns P MakeTables.path 0 (n! "genVar") [.native b, .str name, .slice a [] 0 data.length data.length] h [] (h.set b (.str (w ++ t))) := by
  refine ⟨_, _root_.MakeTables.C63_var name data hn, ?_⟩
  intro fmtr wr fs h b a w hG hb ha
  obtain ⟨hlt, e⟩ := List.getElem?_eq_some_iff.mp hb
  have hab : a ≠ b := by
    rintro rfl
    rw [hb] at ha
    cases ha
  have r := MakeTables.run_genVar hG.tools hG.fmt (hP.text.find MakeTables.text).1 hab hlt ha w name (n := 0)
  rw [show h.set b (.str w) = h by rw [← e, List.set_getElem_self], _root_.MakeTables.genVar_eq] at r
  rw [_root_.MakeTables.genVar_eq, List.nil_append]
  exact .one r

/-- **C101** For every identifier there is for every table a text, such that `genConst`, run with a buffer and that table, appends the text
to the buffer, whatever it holds, and changes no other object. The text declares a string constant of that name with the bytes of the
numbers, least significant first, unless the table is empty; then it is no declaration. -/
theorem C101_const {name : List U8} (hn : IsIdent name) (data : List U64) :
    ∃ t, (readDecls t = if data = [] then none else some [.str name (data.flatMap fun v => BlockSpec.leBytes 8 v.toNat)]) ∧
    ∀ (fmtr : List (BitVec 8) → Except (List (BitVec 8)) (List (BitVec 8))) (wr : Option (List (BitVec 8))) (fs : Nat) (bd : _root_.Hex.Build) (h : List Val) (b a : Nat) (w : List U8),
      GenTools P fmtr wr fs → P.Has Hex.path (Hex.texts bd) [] → P.std (n! "encoding/binary") = stdlib (n! "encoding/binary") →
      elemN (n! "encoding/binary") (P.pkgs.map Pkg.path) = false → h[b]? = some (.str w) → h[a]? = some (.arr (data.map .u64)) →
      ∃ more, Returns P MakeTables.path 0 (n! "genConst") [.native b, .str name, .slice a [] 0 data.length data.length] h [] (h.set b (.str (w ++ t)) ++ more) := by
  refine ⟨_root_.MakeTables.constDecl name data, ?_, ?_⟩
  · by_cases hd : data = []
    · subst hd
      obtain ⟨t, h1, h2⟩ := _root_.MakeTables.C64_empty name hn
      rw [_root_.MakeTables.genConst_eq, List.nil_append] at h1
      rw [Res.ok.inj h1, h2, if_pos rfl]
    · obtain ⟨t, h1, h2⟩ := _root_.MakeTables.C64_const_partial name data hn hd
      rw [_root_.MakeTables.genConst_eq, List.nil_append] at h1
      rw [Res.ok.inj h1, h2, if_neg hd]
  · intro fmtr wr fs bd h b a w hG hX hS hE hb ha
    have hab : a ≠ b := by
      rintro rfl
      rw [hb] at ha
      cases ha
    obtain ⟨j, r⟩ := MakeTables.run_genConst hG.tools hG.fmt (hP.text.find MakeTables.text).1 (hX.find (Hex.text bd)) hS hE hP.word hab hb ha (_root_.MakeTables.genConst_eq w name data)
      (n := 22) (by decide)
    exact ⟨j, .one r⟩

end

/-! ## Examples -/

/-- A standard library for the generator: buffers are objects, the files written are in the list at `fs`. -/
def genStd (fmtr : List (BitVec 8) → Except (List (BitVec 8)) (List (BitVec 8))) (wr : Option (List (BitVec 8))) (fs : Nat) (path n m : Name) (args : List Val) : M Val := fun s =>
  bif Nat.beq path (n! "bytes") then
    match args with
    | [v] =>
      match bytesIn v ⟨s.heap, []⟩ with
      | .ok b _ => .ok (.native s.heap.length) ⟨s.heap ++ [.str b], s.env⟩
      | _ => .stuck
    | _ => .stuck
  else bif Nat.beq path (n! "fmt") then
    match args with
    | .native i :: .str f :: vs =>
      match s.heap[i]?, bif Nat.beq m (n! "Fprint") then some f else sprintf f vs with
      | some (.str w), some t => .ok (.tuple [.int t.length, .nil]) ⟨s.heap.set i (.str (w ++ t)), s.env⟩
      | _, _ => .stuck
    | _ => .stuck
  else bif Nat.beq path (n! "go/format") then
    match args with
    | [v] =>
      match bytesIn v ⟨s.heap, []⟩ with
      | .ok b _ =>
        match fmtr b with
        | .ok t => .ok (.tuple [.slice s.heap.length [] 0 t.length t.length, .nil]) ⟨s.heap ++ [.arr (t.map .u8)], s.env⟩
        | .error m => .ok (.tuple [.nil, .err m]) s
      | _ => .stuck
    | _ => .stuck
  else bif Nat.beq path (n! "os") then
    match args with
    | [.str name, v, _] =>
      match bytesIn v ⟨s.heap, []⟩, s.heap[fs]? with
      | .ok b _, some (.arr l) =>
        match wr with
        | none => .ok .nil ⟨s.heap.set fs (.arr (l ++ [.str name, .str b])), s.env⟩
        | some m => .ok (.err m) s
      | _, _ => .stuck
    | _ => .stuck
  else bif Nat.beq path (n! "log") then .panic s.heap
  else stdlib path n m args s

def genNative (i : Nat) (_ : Name) (_ : List Val) : M Val := fun s =>
  match s.heap[i]? with
  | some (.str w) => .ok (.slice s.heap.length [] 0 w.length w.length) ⟨s.heap ++ [.arr (w.map .u8)], s.env⟩
  | _ => .stuck

/-- A program of the generator on a 64-bit machine. -/
def genProg (fmtr : List (BitVec 8) → Except (List (BitVec 8)) (List (BitVec 8))) (wr : Option (List (BitVec 8))) (fs : Nat) : Prog :=
  { W := 64, pkgs := [MakeTables.pkg, Hex.pkg .table], other := fun _ _ => none, std := genStd fmtr wr fs, native := genNative, grow := id }

/-- The assumptions can be met, for any formatter. -/
theorem genProg_hosts (fmtr : List (BitVec 8) → Except (List (BitVec 8)) (List (BitVec 8))) (wr : Option (List (BitVec 8))) (fs : Nat) : GenHosts (genProg fmtr wr fs) MakeTables.mem ∧ GenTools (genProg fmtr wr fs) fmtr wr fs := by
  refine ⟨⟨⟨_, MakeTables.text, by kernel_rfl⟩, ?_, by kernel_rfl, show 32 ≤ 64 by decide⟩, ⟨?_, by kernel_rfl, by kernel_rfl, by kernel_rfl, by kernel_rfl, by kernel_rfl⟩⟩
  · funext n m args s
    rfl
  · constructor
    · intro h e v b hb
      show (match bytesIn v ⟨h, []⟩ with | .ok b _ => _ | _ => _) = _
      rw [show bytesIn v ⟨h, []⟩ = .ok b ⟨h, []⟩ from hb]
    · intro h e i w f t args hi ht
      show (match h[i]?, sprintf f args with | some (.str w), some t => _ | _, _ => _) = _
      rw [hi, ht]
    · intro h e i w t hi
      show (match h[i]?, some t with | some (.str w), some t => _ | _, _ => _) = _
      rw [hi]
    · intro h e i w hi
      show (match h[i]? with | some (.str w) => _ | _ => _) = _
      rw [hi]
    · intro h e v b hb
      show (match bytesIn v ⟨h, []⟩ with | .ok b _ => _ | _ => _) = _
      rw [show bytesIn v ⟨h, []⟩ = .ok b ⟨h, []⟩ from hb]
      rfl
    · intro h e name v b perm l hf hb
      show (match bytesIn v ⟨h, []⟩, h[fs]? with | .ok b _, some (.arr l) => _ | _, _ => _) = _
      rw [show bytesIn v ⟨h, []⟩ = .ok b ⟨h, []⟩ from hb, hf]
      rfl
    · intro h e m
      rfl

/-- The text of the code, run, with a formatter that changes nothing, when one file was written before: the file written declares the
tables. -/
example : ∃ t h', Returns (genProg .ok none 3) MakeTables.path 0 (n! "main") [] (MakeTables.mem ++ [.arr [.str (ascii "a"), .str []]]) [] h' ∧
    h'[3]? = some (.arr [.str (ascii "a"), .str [], .str (ascii "whirlpool_tables.go"), .str t]) ∧
    readFile t = some (ascii "whirlpool", [.int (ascii "rounds") 10, .u64s (ascii "rc") (_root_.Whirlpool.rc.map BitVec.toNat),
      .u64s (ascii "ct") (_root_.Whirlpool.ct.map BitVec.toNat)]) := by
  obtain ⟨h1, h2⟩ := tables_of Whirlpool.text
  obtain ⟨T, hT, hm⟩ := C100_main (genProg_hosts .ok none 3).1 Whirlpool.text h1 h2
  obtain ⟨h', hr, hf⟩ := (hm .ok none [.arr [.str (ascii "a"), .str []]] [.str (ascii "a"), .str []] 0 (genProg_hosts .ok none 3).2 rfl).1 T rfl rfl
  exact ⟨T, h', hr, hf, hT⟩

/-- And with a formatter that fails. -/
example : ∃ h', Panics (genProg .error none 3) MakeTables.path 0 (n! "main") [] (MakeTables.mem ++ [.arr []]) h' ∧ h'[3]? = some (.arr []) := by
  obtain ⟨h1, h2⟩ := tables_of Whirlpool.text
  obtain ⟨T, _, hm⟩ := C100_main (genProg_hosts .error none 3).1 Whirlpool.text h1 h2
  exact (hm .error none [.arr []] [] 0 (genProg_hosts .error none 3).2 rfl).2 (.inl ⟨T, rfl⟩)

/-- And when the file cannot be written. -/
example : ∃ h', Panics (genProg .ok (some [69#8]) 3) MakeTables.path 0 (n! "main") [] (MakeTables.mem ++ [.arr []]) h' ∧ h'[3]? = some (.arr []) := by
  obtain ⟨h1, h2⟩ := tables_of Whirlpool.text
  obtain ⟨T, _, hm⟩ := C100_main (genProg_hosts .ok (some [69#8]) 3).1 Whirlpool.text h1 h2
  exact (hm .ok (some [69#8]) [.arr []] [] 0 (genProg_hosts .ok (some [69#8]) 3).2 rfl).2 (.inr ⟨_, rfl⟩)

/-- The text of the code, run, from other contents of `rc` and `ct`. -/
example : ∃ v w, Returns (genProg .ok none 3) MakeTables.path 0 (n! "buildCirculantTable") []
      [.nil, .arr ((List.replicate 10 7#64).map .u64), .arr ((List.replicate 2048 9#64).map .u64)] [] [.nil, .arr ((List.replicate 10 7#64).map .u64), v] ∧
    Returns (genProg .ok none 3) MakeTables.path 0 (n! "buildRoundConstants") [] [.nil, .arr ((List.replicate 10 7#64).map .u64), v] [] [.nil, w, v] ∧
    w = .arr ((_root_.Whirlpool.rc).map .u64) ∧ v = .arr ((_root_.Whirlpool.ct).map .u64) := by
  obtain ⟨h1, h2⟩ := tables_of Whirlpool.text
  exact ⟨_, _, C99_circulant (genProg_hosts .ok none 3).1 Whirlpool.text h2 rfl (List.length_replicate ..),
    C99_constants (genProg_hosts .ok none 3).1 Whirlpool.text h2 h1 rfl rfl (List.length_replicate ..), rfl, rfl⟩

/-- The text of the code, run, with a table of two numbers. -/
example : ∃ t more, readDecls t = some [.str (ascii "ab") [4#8, 3#8, 2#8, 1#8, 0#8, 0#8, 0#8, 0#8, 255#8, 0#8, 0#8, 0#8, 0#8, 0#8, 0#8, 0#8]] ∧
    Returns (genProg .ok none 3) MakeTables.path 0 (n! "genConst") [.native 1, .str (ascii "ab"), .slice 0 [] 0 2 2] [.arr [.u64 0x01020304, .u64 255], .str (ascii "x")] []
      ([.arr [.u64 0x01020304, .u64 255], .str (ascii "x" ++ t)] ++ more) := by
  obtain ⟨t, h1, h2⟩ := C101_const (genProg_hosts .ok none 3).1 (name := ascii "ab") ⟨⟨_, _, rfl, by decide⟩, by decide, by decide⟩ [0x01020304#64, 255#64]
  obtain ⟨more, h3⟩ := h2 .ok none 3 .table [.arr [.u64 0x01020304, .u64 255], .str (ascii "x")] 1 0 (ascii "x") (genProg_hosts .ok none 3).2 ⟨_, Hex.text _, by kernel_rfl⟩
    (by funext n m args s; rfl) (by kernel_rfl) rfl rfl
  exact ⟨t, more, h1, h3⟩

end Source
