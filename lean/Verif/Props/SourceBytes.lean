import Verif.Code.BytesSum
import Verif.Props.Bytes
import Verif.Props.SourceHex

/-!
# The source text of package `bytes`, run

C91: the text of the six files of the package, read by the parser and run by the interpreter of `Verif/Lang`, does what the model of the
package does on every memory and for every overlap of the slices; and from that, what it does to the arrays of the program.
-/
namespace Source
open GoLang BytesSpec

/-- The program has the package with that text, the functions it calls are those of the standard library, an `int` has at least 32 bits. -/
structure Hosts (P : Prog) : Prop where
  text : P.Has Bytes.path Bytes.texts []
  std : P.std = stdlib
  errors : elemN (n! "errors") (P.pkgs.map Pkg.path) = false
  binary : elemN (n! "encoding/binary") (P.pkgs.map Pkg.path) = false
  word : 32 ≤ P.W

/-- `endian.Platform` is a variable of another package of the program, with that byte order. -/
structure Platform (P : Prog) (little : Bool) : Prop where
  repo : elemN Bytes.endianPath (P.pkgs.map Pkg.path) = true
  order : P.other Bytes.endianPath (n! "Platform") = some (Bytes.order little)

/-- The functions with an explicit byte order. -/
def nameLE : Width → Name
  | .w16 => n! "Add16LE" | .w32 => n! "Add32LE" | .w64 => n! "Add64LE" | .w128 => n! "Add128LE" | .w256 => n! "Add256LE" | .w512 => n! "Add512LE"

def nameBE : Width → Name
  | .w16 => n! "Add16BE" | .w32 => n! "Add32BE" | .w64 => n! "Add64BE" | .w128 => n! "Add128BE" | .w256 => n! "Add256BE" | .w512 => n! "Add512BE"

/-- Those that ask for the platform. -/
def nameAdd : Width → Name
  | .w16 => n! "Add16" | .w32 => n! "Add32" | .w64 => n! "Add64" | .w128 => n! "Add128" | .w256 => n! "Add256" | .w512 => n! "Add512"

/-- The outcome of the model's function, as outcome of the call: the results, and what the arrays of the layout hold then. -/
def Matches {α : Type} (P : Prog) (f : Name) (args : List Val) (L : Layout) (h : List Val) (vals : α → List Val) (r : Res (Mem × α)) : Prop :=
  match r with
  | .ok (m', x) => ∃ h', Returns P Bytes.path 0 f args h (vals x) h' ∧ View L h' m' ∧ Frame L h h'
  | .panic => ∃ h', Panics P Bytes.path 0 f args h h' ∧ Frame L h h'

theorem Matches.of {α : Type} {P : Prog} {f : Name} {args : List Val} {L : Layout} {h : List Val} {vals : α → List Val} {r : Res (Mem × α)} {n : Nat}
    (e : Bytes.Ends L h vals r (run P n Bytes.path 0 f args h)) : Matches P f args L h vals r := by
  cases r with
  | panic =>
    obtain ⟨h', e, hF⟩ := e
    exact ⟨h', .one e, hF⟩
  | ok y =>
    obtain ⟨h', e, hV, hF⟩ := e
    exact ⟨h', .one e, hV, hF⟩

section
variable {P : Prog} (hP : Hosts P) {L : Layout} {h : List Val} {m : Mem} (hV : View L h m)
include hP hV

/-- **C91** `Zero` and `XorEq` do what the model does, however the slices overlap. -/
theorem C91_model {vd vo : Val} {d o : Slice} (hd : SliceAt L vd d) (ho : SliceAt L vo o) (hl : Fits P d.len) :
    Matches P (n! "Zero") [vd] L h (fun _ : Unit => []) (.ok (_root_.Bytes.Zero m d, ())) ∧
    Matches P (n! "XorEq") [vd, vo] L h (fun n : Nat => [.int n]) (_root_.Bytes.XorEq m d o) := by
  have hp := hP.text.find Bytes.text
  obtain ⟨h₁, r₁, v₁, f₁⟩ := Bytes.run_Zero hp hV hd (Nat.lt_succ_self _)
  obtain ⟨h₂, m₂, k, r₂, e, v₂, f₂⟩ := Bytes.run_XorEq hp hP.word hV hd ho hl (Nat.lt_succ_self _)
  rw [e]
  exact ⟨⟨h₁, .one r₁, v₁, f₁⟩, h₂, .one r₂, v₂, f₂⟩

/-- **C91** `AddNLE`, `AddNBE` and `AddN` do what the model does, however the slices overlap. -/
theorem C91_model_add (w : Width) {vs va vb : Val} {s a b : Slice} (hs : SliceAt L vs s) (ha : SliceAt L va a) (hb : SliceAt L vb b) (hl : Fits P b.len) :
    Matches P (nameLE w) [vs, va, vb] L h Bytes.sumVals (_root_.Bytes.AddLE w m s a b) ∧
    Matches P (nameBE w) [vs, va, vb] L h Bytes.sumVals (_root_.Bytes.AddBE w m s a b) ∧
    ∀ little, Platform P little → Matches P (nameAdd w) [vs, va, vb] L h Bytes.sumVals (_root_.Bytes.Add w little m s a b) := by
  have hp := hP.text.find Bytes.text
  have hf : s.len + 75 < s.len + 76 := Nat.lt_succ_self _
  refine ⟨.of (n := s.len + 76 + 1) ?_, .of (n := s.len + 76 + 1) ?_, fun little hO => .of (n := s.len + 76 + 1) ?_⟩
  · cases w
    · exact Bytes.run_Add16LE hp hP.std hP.errors hP.binary hP.word hV hs ha hb (by omega)
    · exact Bytes.run_Add32LE hp hP.std hP.errors hP.binary hP.word hV hs ha hb (by omega)
    · exact Bytes.run_Add64LE hp hP.std hP.errors hP.binary hP.word hV hs ha hb (by omega)
    · exact Bytes.run_Add128LE hp hP.std hP.errors hP.binary hP.word hV hs ha hb (by omega)
    · exact Bytes.run_Add256LE hp hP.std hP.errors hP.binary hP.word hV hs ha hb (by omega)
    · exact Bytes.run_Add512LE hp hP.std hP.errors hP.binary hP.word hV hs ha hb (by omega)
  · cases w
    · exact Bytes.run_Add16BE hp hP.std hP.errors hP.binary hP.word hV hs ha hb (by omega)
    · exact Bytes.run_Add32BE hp hP.std hP.errors hP.binary hP.word hV hs ha hb (by omega)
    · exact Bytes.run_Add64BE hp hP.std hP.errors hP.binary hP.word hV hs ha hb hl (by omega)
    · exact Bytes.run_Add128BE hp hP.std hP.errors hP.binary hP.word hV hs ha hb hl (by omega)
    · exact Bytes.run_Add256BE hp hP.std hP.errors hP.binary hP.word hV hs ha hb hl (by omega)
    · exact Bytes.run_Add512BE hp hP.std hP.errors hP.binary hP.word hV hs ha hb hl (by omega)
  · cases w
    · exact Bytes.run_Add16 hp hP.std hP.errors hP.binary hP.word hO.repo hO.order hV hs ha hb (by omega)
    · exact Bytes.run_Add32 hp hP.std hP.errors hP.binary hP.word hO.repo hO.order hV hs ha hb (by omega)
    · exact Bytes.run_Add64 hp hP.std hP.errors hP.binary hP.word hO.repo hO.order hV hs ha hb hl (by omega)
    · exact Bytes.run_Add128 hp hP.std hP.errors hP.binary hP.word hO.repo hO.order hV hs ha hb hl (by omega)
    · exact Bytes.run_Add256 hp hP.std hP.errors hP.binary hP.word hO.repo hO.order hV hs ha hb hl (by omega)
    · exact Bytes.run_Add512 hp hP.std hP.errors hP.binary hP.word hO.repo hO.order hV hs ha hb hl (by omega)

end

section
variable {P : Prog} (hP : Hosts P) {h : List Val}

/-- **C91** Every memory has such a layout, in which its byte slices are slices. -/
theorem C91_layout (h : List Val) : View (layoutOf h) h (memOf h) ∧ (∀ v, ByteSlice h v → SliceAt (layoutOf h) v (sliceOf h v)) ∧
    ∀ v b, ByteSlice h v → HasBytes h v b → (sliceOf h v).content (memOf h) = b :=
  ⟨view_of h, fun _ hv => hv.at, fun _ _ hv hb => hv.content hb⟩

include hP

/-- **C91** `Zero` clears exactly its slice. -/
theorem C91_zero {v : Val} (hv : ByteSlice h v) :
    ∃ h', Returns P Bytes.path 0 (n! "Zero") [v] h [] h' ∧ HasBytes h' v (List.replicate (sliceLen v) 0) ∧ Keeps (Covers v (sliceLen v)) h h' := by
  obtain ⟨h', r, hV', hF⟩ := Bytes.run_Zero (hP.text.find Bytes.text) (view_of h) hv.at (Nat.lt_succ_self _)
  replace r := Returns.one r
  obtain ⟨c1, c2⟩ := _root_.Bytes.C32_zero (memOf h) (sliceOf h v)
  refine ⟨h', r, ?_, Keeps.of hv hV' hF fun x hx => c2 x ?_⟩
  · have e : (sliceOf h v).content (_root_.Bytes.Zero (memOf h) (sliceOf h v)) = List.replicate (sliceLen v) 0 := by
      apply List.ext_getElem?
      intro i
      simp only [Slice.content, List.getElem?_map, List.getElem?_replicate, ← sliceLen_eq h]
      by_cases hi : i < (sliceOf h v).len
      · rw [List.getElem?_range hi, if_pos hi, Option.map_some, c1]
        · rfl
        · simp only [Slice.Has]; omega
      · rw [if_neg hi, List.getElem?_eq_none (by simpa using hi)]; rfl
    rw [← e]
    exact hv.at.has hV'
  · rwa [← sliceLen_eq h, Nat.min_self] at hx

/-- **C91** `XorEq` returns the common length and xors that many bytes, for slices that do not overlap or where `dst` does not start
after `other`. -/
theorem C91_xor {vd vo : Val} {d o : List U8} (hd : ByteSlice h vd) (ho : ByteSlice h vo) (hdb : HasBytes h vd d) (hob : HasBytes h vo o)
    (hl : Fits P d.length) (hn : NoOverlap vd d.length vo o.length ∨
      ∃ a p off len cap off' len' cap', vd = .slice a p off len cap ∧ vo = .slice a p off' len' cap' ∧ off ≤ off') :
    ∃ h', Returns P Bytes.path 0 (n! "XorEq") [vd, vo] h [.int (min d.length o.length : Nat)] h' ∧
      HasBytes h' vd (List.zipWith (· ^^^ ·) d o ++ d.drop o.length) ∧ Keeps (Covers vd o.length) h h' := by
  have hdl := hd.length hdb
  have hol := ho.length hob
  have hdc := hd.content hdb
  have hoc := ho.content hob
  have hs : (sliceOf h vd).Disjoint (sliceOf h vo) ∨ (sliceOf h vd).base ≤ (sliceOf h vo).base := by
    rcases hn with hn | ⟨a, p, off, len, cap, off', len', cap', rfl, rfl, hle⟩
    · have := hn.disjoint hd ho
      rw [← hdl, ← hol, Nat.min_self, Nat.min_self] at this
      exact .inl this
    · exact .inr (Nat.add_le_add_left hle _)
  obtain ⟨m', e, c1, c2⟩ := _root_.Bytes.C33_xor (memOf h) _ _ hs
  have r := (C91_model hP (view_of h) hd.at ho.at (by rw [hdl]; exact hl)).2
  rw [e] at r
  obtain ⟨h', r, hV', hF⟩ := r
  rw [hdl, hol] at r
  refine ⟨h', r, ?_, Keeps.of hd hV' hF fun x hx => c2 x ?_⟩
  · have e : (sliceOf h vd).content m' = List.zipWith (· ^^^ ·) d o ++ d.drop o.length := by
      have hx : ∀ i, i < d.length → d[i]? = some (memOf h ((sliceOf h vd).base + i)) := by
        intro i hi
        rw [← hdc, Slice.content, List.getElem?_map, List.getElem?_range (by omega)]
        rfl
      have hy : ∀ i, i < o.length → o[i]? = some (memOf h ((sliceOf h vo).base + i)) := by
        intro i hi
        rw [← hoc, Slice.content, List.getElem?_map, List.getElem?_range (by omega)]
        rfl
      apply List.ext_getElem?
      intro i
      by_cases hi : i < d.length
      · rw [Slice.content, List.getElem?_map, List.getElem?_range (by omega), Option.map_some]
        by_cases hj : i < o.length
        · rw [List.getElem?_append_left (by simp; omega), List.getElem?_zipWith, hx i hi, hy i hj, c1 i (by omega)]
        · rw [List.getElem?_append_right (by simp; omega), List.length_zipWith, List.getElem?_drop,
            show o.length + (i - min d.length o.length) = i by omega, hx i hi, c2 _ (by simp only [firstN, Slice.Has]; omega)]
      · rw [List.getElem?_eq_none (by simp; omega), List.getElem?_eq_none (by simp; omega)]
    rw [← e]
    exact hd.at.has hV'
  · rw [hol]; exact hx

/-- The call adds: `val` of the first `n` bytes of `sum` becomes the low `8n` bits of `x + y`, the carry is the rest; at most the first
`k` bytes of `sum` are written. -/
def Adds (P : Prog) (f : Name) (h : List Val) (vs va vb : Val) (n k : Nat) (val : List U8 → Nat) (x y : Nat) : Prop :=
  ∃ h' c r, Returns P Bytes.path 0 f [vs, va, vb] h [.u8 c, .nil] h' ∧ HasBytes h' vs r ∧ val (r.take n) = (x + y) % 2 ^ (8 * n) ∧
    c.toNat = (x + y) / 2 ^ (8 * n) ∧ Keeps (Covers vs k) h h'

omit hP in
theorem adds_le (w : Width) {f : Name} {vs va vb : Val} {s a b : List U8} (hs : ByteSlice h vs) (ha : ByteSlice h va) (hb : ByteSlice h vb)
    (hsb : HasBytes h vs s) (hab : HasBytes h va a) (hbb : HasBytes h vb b) (hl : w.bytes ≤ s.length)
    (hn : a.length = 0 ∨ w.bytes ≤ a.length ∨ ¬ SameStart va vs) (ho : NoOverlap vs w.bytes vb w.bytes)
    (hm : Matches P f [vs, va, vb] (layoutOf h) h Bytes.sumVals (_root_.Bytes.AddLE w (memOf h) (sliceOf h vs) (sliceOf h va) (sliceOf h vb))) :
    Adds P f h vs va vb w.bytes w.bytes leVal (leVal (a.take w.bytes)) (leVal (b.take w.bytes)) := by
  have hsl := hs.length hsb
  have hal := ha.length hab
  have hpos := _root_.Bytes.bytes_pos w
  obtain ⟨m', c, e, c1, c2, c3⟩ := _root_.Bytes.C25_exact w (memOf h) (sliceOf h vs) (sliceOf h va) (sliceOf h vb) (by omega)
    (by
      rcases hn with hn | hn | hn
      · exact .inl (by omega)
      · exact .inr (.inl (by omega))
      · rcases Nat.eq_zero_or_pos a.length with h0 | h0
        · exact .inl (by omega)
        · exact .inr (.inr fun he => hn (sameStart_of ha hs (by rw [← sliceLen_eq h]; omega) (by rw [← sliceLen_eq h]; omega) he)))
    (ho.disjoint hs hb)
  rw [e] at hm
  obtain ⟨h', r, hV', hF⟩ := hm
  rw [ha.content hab, hb.content hbb] at c1 c2
  refine ⟨h', c, _, r, hs.at.has hV', ?_, c2, Keeps.of hs hV' hF c3⟩
  rw [← content_take]
  exact c1

omit hP in
theorem adds_be (w : Width) {f : Name} {vs va vb : Val} {s a b : List U8} (hs : ByteSlice h vs) (ha : ByteSlice h va) (hb : ByteSlice h vb)
    (hsb : HasBytes h vs s) (hab : HasBytes h va a) (hbb : HasBytes h vb b) (hl : w.bytes ≤ s.length) (hbl : b.length ≤ w.bytes)
    (hn : NoOverlap vs (w.bytes - a.length) va a.length) (ho : NoOverlap vs (max w.bytes a.length) vb b.length)
    (hm : Matches P f [vs, va, vb] (layoutOf h) h Bytes.sumVals (_root_.Bytes.AddBE w (memOf h) (sliceOf h vs) (sliceOf h va) (sliceOf h vb))) :
    Adds P f h vs va vb w.bytes (max w.bytes a.length) beVal (beVal (a.take w.bytes)) (beVal b) := by
  have hsl := hs.length hsb
  have hal := ha.length hab
  have hbl' := hb.length hbb
  have d1 := hn.disjoint hs ha
  have d2 := ho.disjoint hs hb
  rw [← hal] at d1 d2
  rw [← hbl'] at d2
  rw [Nat.min_self] at d1 d2
  obtain ⟨m', c, e, c1, c2, c3⟩ := _root_.Bytes.C26_exact w (memOf h) (sliceOf h vs) (sliceOf h va) (sliceOf h vb) (by omega) (by omega) d1 d2
  rw [e] at hm
  obtain ⟨h', r, hV', hF⟩ := hm
  rw [ha.content hab, hb.content hbb] at c1 c2
  rw [hal] at c3
  refine ⟨h', c, _, r, hs.at.has hV', ?_, c2, Keeps.of hs hV' hF c3⟩
  rw [← content_take]
  exact c1

/-- **C91** `AddNLE`, and `AddN` on a little-endian platform, add the first N/8 bytes of `a` and of `b` as little-endian numbers and write
nothing else. `a` may overlap `sum` except as a shorter slice with the same start; the used part of `b` must not overlap what is written. -/
theorem C91_add_le (w : Width) {vs va vb : Val} {s a b : List U8} (hs : ByteSlice h vs) (ha : ByteSlice h va) (hb : ByteSlice h vb)
    (hsb : HasBytes h vs s) (hab : HasBytes h va a) (hbb : HasBytes h vb b) (hf : Fits P b.length) (hl : w.bytes ≤ s.length)
    (hn : a.length = 0 ∨ w.bytes ≤ a.length ∨ ¬ SameStart va vs) (ho : NoOverlap vs w.bytes vb w.bytes) :
    Adds P (nameLE w) h vs va vb w.bytes w.bytes leVal (leVal (a.take w.bytes)) (leVal (b.take w.bytes)) ∧
    (Platform P true → Adds P (nameAdd w) h vs va vb w.bytes w.bytes leVal (leVal (a.take w.bytes)) (leVal (b.take w.bytes))) := by
  have hbl := hb.length hbb
  have hsl := hs.length hsb
  obtain ⟨m1, -, m3⟩ := C91_model_add hP (view_of h) w hs.at ha.at hb.at (by rw [hbl]; exact hf)
  refine ⟨adds_le w hs ha hb hsb hab hbb hl hn ho m1, fun hO => adds_le w hs ha hb hsb hab hbb hl hn ho ?_⟩
  have := m3 true hO
  rwa [_root_.Bytes.C31_platform_partial w true _ _ _ _ (.inr (by omega)), if_pos rfl] at this

/-- **C91** `AddNBE`, and `AddN` on a big-endian platform, add the first N/8 bytes of `a` and a `b` of at most N/8 bytes as big-endian
numbers. A shorter `a` must not overlap the part of `sum` in front of its copy; `b` must not overlap what is written. -/
theorem C91_add_be (w : Width) {vs va vb : Val} {s a b : List U8} (hs : ByteSlice h vs) (ha : ByteSlice h va) (hb : ByteSlice h vb)
    (hsb : HasBytes h vs s) (hab : HasBytes h va a) (hbb : HasBytes h vb b) (hl : w.bytes ≤ s.length) (hbl : b.length ≤ w.bytes)
    (hn : NoOverlap vs (w.bytes - a.length) va a.length) (ho : NoOverlap vs (max w.bytes a.length) vb b.length) :
    Adds P (nameBE w) h vs va vb w.bytes (max w.bytes a.length) beVal (beVal (a.take w.bytes)) (beVal b) ∧
    (Platform P false → Adds P (nameAdd w) h vs va vb w.bytes (max w.bytes a.length) beVal (beVal (a.take w.bytes)) (beVal b)) := by
  have hbl' := hb.length hbb
  have hsl := hs.length hsb
  have hp31 := Bytes.pow31 hP.word
  have hw : w.bytes ≤ 64 := by cases w <;> decide
  obtain ⟨-, m2, m3⟩ := C91_model_add hP (view_of h) w hs.at ha.at hb.at (by unfold Fits; omega)
  refine ⟨adds_be w hs ha hb hsb hab hbb hl hbl hn ho m2, fun hO => adds_be w hs ha hb hsb hab hbb hl hbl hn ho ?_⟩
  have := m3 false hO
  rwa [_root_.Bytes.C31_platform_partial w false _ _ _ _ (.inr (by omega)), if_neg (by decide)] at this

/-- **C91** A `sum` that is too short: the functions with an explicit byte order, and `Add64` to `Add512`, return the error and write
nothing; `Add16` and `Add32` panic. -/
theorem C91_short (w : Width) {vs va vb : Val} {s b : List U8} (hs : ByteSlice h vs) (ha : ByteSlice h va) (hb : ByteSlice h vb)
    (hsb : HasBytes h vs s) (hbb : HasBytes h vb b) (hf : Fits P b.length) (hl : s.length < w.bytes) :
    (∀ f, f = nameLE w ∨ f = nameBE w ∨ f = nameAdd w ∧ w ≠ .w16 ∧ w ≠ .w32 ∧ (∃ little, Platform P little) →
      ∃ h', Returns P Bytes.path 0 f [vs, va, vb] h [.u8 0, .err (ascii "not enough space")] h' ∧ Keeps (fun _ _ _ => False) h h') ∧
    (w = .w16 ∨ w = .w32 → ∀ little, Platform P little → ∃ h', Panics P Bytes.path 0 (nameAdd w) [vs, va, vb] h h') := by
  have hbl := hb.length hbb
  have hsl := hs.length hsb
  obtain ⟨m1, m2, m3⟩ := C91_model_add hP (view_of h) w hs.at ha.at hb.at (by rw [hbl]; exact hf)
  obtain ⟨e1, e2, e3⟩ := _root_.Bytes.C28_error_partial w (memOf h) (sliceOf h vs) (sliceOf h va) (sliceOf h vb) (by omega)
  have key : ∀ f, Matches P f [vs, va, vb] (layoutOf h) h Bytes.sumVals (.ok (memOf h, 0#8, true)) →
      ∃ h', Returns P Bytes.path 0 f [vs, va, vb] h [.u8 0, .err (ascii "not enough space")] h' ∧ Keeps (fun _ _ _ => False) h h' := by
    rintro f ⟨h', r, hV', hF⟩
    exact ⟨h', r, Keeps.none hV' hF⟩
  constructor
  · rintro f (rfl | rfl | ⟨rfl, hw1, hw2, little, hO⟩)
    · rw [e1] at m1; exact key _ m1
    · rw [e2] at m2; exact key _ m2
    · have := m3 little hO
      rw [e3 ⟨hw1, hw2⟩ little] at this
      exact key _ this
  · intro hw little hO
    have := m3 little hO
    rw [_root_.Bytes.C28_false w hw little _ _ _ _ (by omega)] at this
    obtain ⟨h', r, -⟩ := this
    exact ⟨h', r⟩

end

/-! ## Examples -/

/-- A program of this package and one with `Platform`, on a 64-bit machine of that byte order. -/
def bytesProg (little : Bool) : Prog :=
  { W := 64, pkgs := [Bytes.pkg, ⟨Bytes.endianPath, [], .nil, [], []⟩], other := fun _ _ => some (Bytes.order little), std := stdlib,
    native := fun _ _ _ => stuck, grow := fun n => n }

theorem bytesProg_hosts (little : Bool) : Hosts (bytesProg little) :=
  ⟨⟨Bytes.pkg, Bytes.text, by kernel_rfl⟩, rfl, by kernel_rfl, by kernel_rfl, by simp [bytesProg]⟩

theorem bytesProg_platform (little : Bool) : Platform (bytesProg little) little := ⟨by kernel_rfl, rfl⟩

/-- Three arrays in one memory, the last inside a struct. -/
def threeArrays : List Val := [.arr ([0xff, 0xff, 0xff, 7].map .u8), .struct 0 0 [(n! "x", .arr ([1].map .u8)), (n! "y", .int 5)]]

/-- The premises of the theorems hold there: `Add16LE(v[0:2], v[1:3], x)`, where the two slices of the first array overlap. -/
example (little : Bool) : Adds (bytesProg little) (nameLE .w16) threeArrays (.slice 0 [] 0 2 4) (.slice 0 [] 1 2 3) (.slice 1 [.fld (n! "x")] 0 1 1)
    2 2 leVal 0xffff 1 := by
  refine (C91_add_le (bytesProg_hosts little) .w16 (s := [0xff, 0xff]) (a := [0xff, 0xff]) (b := [1]) ?_ ?_ ?_ (by unfold HasBytes; kernel_rfl) (by unfold HasBytes; kernel_rfl) (by unfold HasBytes; kernel_rfl) (by simp [Fits, bytesProg]) (by decide) ?_ ?_).1
  · exact .inr ⟨0, [], 0, 2, 4, [0xff, 0xff, 0xff, 7], rfl, rfl, by decide, by decide⟩
  · exact .inr ⟨0, [], 1, 2, 3, [0xff, 0xff, 0xff, 7], rfl, rfl, by decide, by decide⟩
  · exact .inr ⟨1, [.fld (n! "x")], 0, 1, 1, [1], rfl, rfl, by decide, by decide⟩
  · exact .inr (.inl (by decide))
  · rintro a p i ⟨⟨_, _, _, h1, _⟩, ⟨_, _, _, h2, _⟩⟩
    cases h1
    cases h2

/-- The run itself: 0xffff + 1, with the byte after the sum as it was, and the new empty slice of `addAnyLE` for the wider one. -/
example : run (bytesProg true) 20 Bytes.path 0 (n! "Add16") [.slice 0 [] 0 2 4, .slice 0 [] 1 2 3, .slice 1 [.fld (n! "x")] 0 1 1] threeArrays =
    .ok [.u8 1, .nil] ⟨[.arr ([0, 0, 0xff, 7].map .u8), .struct 0 0 [(n! "x", .arr ([1].map .u8)), (n! "y", .int 5)]], []⟩ := by kernel_rfl

/-- Too short: an error from `Add16BE`, a panic from `Add16`. -/
example : run (bytesProg false) 20 Bytes.path 0 (n! "Add16BE") [.slice 0 [] 0 1 4, .nil, .nil] threeArrays =
      .ok [.u8 0, .err (ascii "not enough space")] ⟨threeArrays, []⟩ ∧
    run (bytesProg false) 20 Bytes.path 0 (n! "Add16") [.slice 0 [] 0 1 4, .nil, .nil] threeArrays = .panic threeArrays := by
  constructor <;> kernel_rfl

end Source
