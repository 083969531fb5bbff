import Verif.Lemmas.GeneratedText
import Verif.Props.SourceCodegen

/-!
# Generated Go text, read and run

C117: the text that package `codegen` makes from bytes, put into a function, is Go that the lexer and the parser of `Verif/Lang` accept, and the
function, run by the interpreter, returns those bytes. So what `evalString` and `evalBody` say about literals (C07 to C09, C90) is what the
language that runs the repository itself says.
-/
namespace Source
open GoLang CodegenSpec HexSpec

/-! ## The function, run -/

/-- The package that consists of that function. -/
def Generated.pkg (path : Name) (T : Ty) (e : Expr) : Pkg := ⟨path, [], (oneReturn T e).decls, [], []⟩

theorem Generated.load {path : Name} {src : List String} {T : Ty} {e : Expr} (h : parse src = some (oneReturn T e)) :
    loadText path [src] [] = some (Generated.pkg path T e) := by
  unfold loadText parseAll
  rw [h]
  rfl

theorem Generated.toBits (b : U8) : BitVec.ofInt 8 (b.toNat : Int) = b := by
  rw [BitVec.ofInt_natCast, BitVec.ofNat_toNat, BitVec.setWidth_eq]

theorem Generated.ofNats (s : List U8) : (s.map BitVec.toNat).map (BitVec.ofNat 8) = s := by
  rw [List.map_map]
  exact (List.map_congr_left fun x _ => by simp).trans (List.map_id s)

/-- The value of a sum of string literals. -/
theorem Generated.eval_sum (c : Ctx) (st : St) : ∀ (ss : List (List U8)) (e : Expr) (b : List U8), eval c e st = .ok (.str b) st →
    eval c (strSum e (ss.map fun s => s.map BitVec.toNat)) st = .ok (.str (b ++ ss.flatten)) st
  | [], e, b, h => by rw [List.flatten_nil, List.append_nil]; exact h
  | s :: ss, e, b, h => by
    have h1 : eval c (.bin .add e (.str (s.map BitVec.toNat))) st = .ok (.str (b ++ s)) st := by
      have h2 : eval c (.bin .add e (.str (s.map BitVec.toNat))) st = binOp c.W .add (eval c e) (eval c (.str (s.map BitVec.toNat))) st := rfl
      have h3 : eval c (.str (s.map BitVec.toNat)) st = .ok (.str s) st := by
        rw [eval, Generated.ofNats]
        rfl
      rw [h2]
      eval_go [binOp, h, h3, binary, arith, Generated.ofNats]
    have := Generated.eval_sum c st ss _ _ h1
    rw [List.append_assoc] at this
    exact this

/-- The elements of a composite literal. -/
theorem Generated.evalElts_nums (c : Ctx) (st : St) : ∀ b : List U8,
    evalElts c (intElts (b.map BitVec.toNat)) st = .ok (b.map fun x => (0, .const x.toNat)) st
  | [] => rfl
  | x :: b => by
    have ih := Generated.evalElts_nums c st b
    show evalElts c (.cons 0 (.int x.toNat) (intElts (b.map BitVec.toNat))) st = _
    eval_go [evalElts, ih]

theorem Generated.coerce_nums {c : Ctx} (hc : ∀ i : Int, coerce c (.name (n! "byte")) (.const i) = pure (.u8 (.ofInt 8 i))) (st : St) : ∀ b : List U8,
    coerceElems c (.name (n! "byte")) (b.map fun x => (0, .const x.toNat)) st = .ok (b.map .u8) st
  | [] => rfl
  | x :: b => by
    have ih := Generated.coerce_nums hc st b
    rw [List.map_cons, coerceElems, hc]
    eval_go [ih, Generated.toBits]

/-- A function that returns the value of an expression, run. -/
theorem Generated.run {P : Prog} {path : Name} {T : Ty} {e : Expr} {v : Val} {h h' : List Val} (hp : findPkg path P.pkgs = some (Generated.pkg path T e))
    (he : ∀ n call, eval (P.ctx n (Generated.pkg path T e) (n! "F") (.cons 0 T .nil) call) e ⟨h, []⟩ = .ok v ⟨h', []⟩) (hv : Plain v) :
    Returns P path 0 (n! "F") [] h [v] h' := by
  refine .one (n := 1) ?_
  rw [run_func hp rfl]
  eval_go [he, hv]

theorem Generated.run_sum {P : Prog} {path : Name} {s : List U8} {ss : List (List U8)} (h : List Val)
    (hp : findPkg path P.pkgs = some (Generated.pkg path (.name (n! "string")) (strSum (.str (s.map BitVec.toNat)) (ss.map fun s => s.map BitVec.toNat)))) :
    Returns P path 0 (n! "F") [] h [.str (s ++ ss.flatten)] h :=
  Generated.run hp (fun n call => Generated.eval_sum _ _ ss _ s (by rw [eval, Generated.ofNats]; rfl)) (by simp [Plain])

theorem Generated.run_comp {P : Prog} {path : Name} {b : List U8} (h : List Val)
    (hp : findPkg path P.pkgs = some (Generated.pkg path (.slice (.name (n! "byte"))) (.comp (.slice (.name (n! "byte"))) (intElts (b.map BitVec.toNat))))) :
    Returns P path 0 (n! "F") [] h [.slice h.length [] 0 b.length b.length] (h ++ [.arr (b.map .u8)]) := by
  refine Generated.run hp (fun n call => ?_) (by simp [Plain])
  have h1 := Generated.evalElts_nums (P.ctx n (Generated.pkg path (.slice (.name (n! "byte"))) (.comp (.slice (.name (n! "byte"))) (intElts (b.map BitVec.toNat)))) (n! "F")
    (.cons 0 (.slice (.name (n! "byte"))) .nil) call) ⟨h, []⟩ b
  have h2 := Generated.coerce_nums (c := P.ctx n (Generated.pkg path (.slice (.name (n! "byte"))) (.comp (.slice (.name (n! "byte"))) (intElts (b.map BitVec.toNat)))) (n! "F")
    (.cons 0 (.slice (.name (n! "byte"))) .nil) call) (fun i => rfl) ⟨h, []⟩ b
  rw [eval]
  eval_go [h1, compLit, h2]
  simp

/-! ## Any text of such bytes is the text of a file -/

theorem bytesOf_append (s t : String) : bytesOf (s ++ t) = bytesOf s ++ bytesOf t := by
  simp [bytesOf]

theorem bytesOf_char : ∀ c : Fin 128, bytesOf (String.singleton (Char.ofNat c)) = [c.val] := by decide +kernel

theorem lines_exist : ∀ t : List U8, (∀ x ∈ t, x.toNat < 128) → ∃ src, LinesOf src t
  | [], _ => ⟨[""], by simp, by decide, rfl⟩
  | x :: t, h => by
    obtain ⟨src, h1, h2, h3⟩ := lines_exist t fun y hy => h y (List.mem_cons_of_mem _ hy)
    obtain ⟨s, src, rfl⟩ := List.exists_cons_of_ne_nil h1
    by_cases hx : x.toNat = 10
    · refine ⟨"" :: s :: src, by simp, ?_, ?_⟩
      · intro y hy
        rcases List.mem_cons.mp hy with rfl | hy
        · decide
        · exact h2 y hy
      · rw [List.map_cons, List.map_cons, intercalate_two, ← List.map_cons, h3, List.map_cons, hx]
        rfl
    · have hc := bytesOf_char ⟨x.toNat, h x (by simp)⟩
      refine ⟨(String.singleton (Char.ofNat x.toNat) ++ s) :: src, by simp, ?_, ?_⟩
      · intro y hy
        rcases List.mem_cons.mp hy with rfl | hy
        · rw [bytesOf_append, hc]
          have := h2 s (by simp)
          simp [this]
          omega
        · exact h2 y (List.mem_cons_of_mem _ hy)
      · rw [List.map_cons, List.map_cons, ← h3, bytesOf_append, hc]
        cases src with
        | nil => simp [List.intercalate]
        | cons y src => rw [List.map_cons, List.map_cons, List.map_cons, intercalate_two, intercalate_two]; rfl

theorem Generated.low_of_map {t : List U8} {l : List Nat} (h : t.map BitVec.toNat = l) (hl : ∀ x ∈ l, x < 128) : ∀ x ∈ t, x.toNat < 128 :=
  fun x hx => hl x.toNat (h ▸ List.mem_map_of_mem hx)

theorem Generated.digits_low : ∀ b : U8, hiDigit b < 128 ∧ loDigit b < 128 := by decide +kernel

theorem Generated.escapes_low (s : List U8) : ∀ x ∈ escapes s, x < 128 := by
  intro x hx
  simp only [escapes, List.mem_flatMap] at hx
  obtain ⟨b, -, hx⟩ := hx
  have := Generated.digits_low b
  simp only [List.mem_cons, List.not_mem_nil, or_false] at hx
  omega

theorem Generated.sum_low : ∀ (ss : List (List U8)), ∀ x ∈ sumText ss, x < 128
  | [], _, hx => by simp [sumText] at hx
  | s :: ss, x, hx => by
    have h1 := Generated.escapes_low s x
    have h2 := Generated.sum_low ss x
    simp only [sumText, List.mem_append, List.mem_cons, List.not_mem_nil, or_false] at hx
    rcases hx with ((rfl | rfl | hx) | rfl) | hx <;> first | omega | exact h1 hx | exact h2 hx

theorem Generated.piece_low : ∀ (s : List U8), ∀ x ∈ pieceText s, x < 128
  | [], _, hx => by simp [pieceText] at hx
  | [b], x, hx => by
    have := Generated.digits_low b
    simp only [pieceText, List.mem_cons, List.not_mem_nil, or_false] at hx
    omega
  | b :: c :: s, x, hx => by
    have := Generated.digits_low b
    have h2 := Generated.piece_low (c :: s) x
    simp only [pieceText, List.mem_cons] at hx
    rcases hx with rfl | rfl | rfl | rfl | rfl | rfl | hx <;> first | omega | exact h2 hx

theorem Generated.join_low : ∀ (ls : List (List U8)), (∀ l ∈ ls, ∀ x ∈ l, x.toNat < 128) → ∀ x ∈ (ascii ", \n").intercalate ls, x.toNat < 128
  | [], _, x, hx => by simp [List.intercalate] at hx
  | [l], h, x, hx => h l (by simp) x (by simpa [List.intercalate] using hx)
  | l :: m :: ls, h, x, hx => by
    have ih := Generated.join_low (m :: ls) (fun l hl => h l (List.mem_cons_of_mem _ hl)) x
    have e : (ascii ", \n").intercalate (l :: m :: ls) = l ++ (ascii ", \n" ++ (ascii ", \n").intercalate (m :: ls)) := by
      simp [List.intercalate, List.intersperse]
    rw [e, List.mem_append, List.mem_append] at hx
    rcases hx with hx | hx | hx
    · exact h l (by simp) x hx
    · exact (by decide : ∀ x ∈ ascii ", \n", x.toNat < 128) x hx
    · exact ih hx

theorem Generated.body_low (n : Nat) (b : List U8) : ∀ x ∈ compositeBody n b, x.toNat < 128 := by
  intro x hx
  simp only [compositeBody, List.mem_append] at hx
  rcases hx with (hx | hx) | hx
  · exact (by decide : ∀ x ∈ ascii "{", x.toNat < 128) x hx
  · refine Generated.join_low _ ?_ x hx
    intro l hl
    obtain ⟨s, -, rfl⟩ := List.mem_map.mp hl
    exact Generated.low_of_map (section_map s) (Generated.piece_low s)
  · exact (by decide : ∀ x ∈ ascii "}", x.toNat < 128) x hx

theorem Generated.lines {ty : String} {e : List U8} (ht : ∀ x ∈ ascii ty, x.toNat < 128) (he : ∀ x ∈ e, x.toNat < 128) : ∃ src, LinesOf src (returning ty e) := by
  refine lines_exist _ fun x hx => ?_
  simp only [returning, List.mem_append] at hx
  rcases hx with (((hx | hx) | hx) | hx) | hx
  · exact (by decide : ∀ x ∈ ascii "package p\nfunc F() ", x.toNat < 128) x hx
  · exact ht x hx
  · exact (by decide : ∀ x ∈ ascii " {\nreturn ", x.toNat < 128) x hx
  · exact he x hx
  · exact (by decide : ∀ x ∈ ascii "\n}\n", x.toNat < 128) x hx

/-- A program of that package alone. -/
theorem Generated.prog {src : List String} {T : Ty} {e : Expr} (h : parse src = some (oneReturn T e)) (path : Name) : ∃ Q : Prog, Q.Has path [src] [] :=
  ⟨{ W := 64, pkgs := [Generated.pkg path T e], other := fun _ _ => none, std := stdlib, native := fun _ _ _ => stuck, grow := fun n => n },
    Generated.pkg path T e, Generated.load h, by simp [findPkg, Generated.pkg]⟩

/-! ## The claims -/

/-- The text `t` is an expression of type string with the value `b`: there is a file whose function returns it, that file is a package by
itself, and in every program that contains it, on every machine, the function returns `b` and leaves memory as it is. -/
def IsString (t b : List U8) : Prop :=
  (∃ src, LinesOf src (returning "string" t)) ∧
  ∀ src, LinesOf src (returning "string" t) → (∀ path, ∃ Q : Prog, Q.Has path [src] []) ∧
    ∀ (Q : Prog) (path : Name), Q.Has path [src] [] → ∀ g, Returns Q path 0 (n! "F") [] g [.str b] g

/-- The text `t`, after the type `[]byte`, is an expression whose value is a new slice of the bytes `b`. -/
def IsBody (t b : List U8) : Prop :=
  (∃ src, LinesOf src (returning "[]byte" (ascii "[]byte" ++ t))) ∧
  ∀ src, LinesOf src (returning "[]byte" (ascii "[]byte" ++ t)) → (∀ path, ∃ Q : Prog, Q.Has path [src] []) ∧
    ∀ (Q : Prog) (path : Name), Q.Has path [src] [] → ∀ g, Returns Q path 0 (n! "F") [] g [.slice g.length [] 0 b.length b.length] (g ++ [.arr (b.map .u8)]) ∧
    HasBytes (g ++ [.arr (b.map .u8)]) (.slice g.length [] 0 b.length b.length) b

theorem IsString.of {t b : List U8} {s : List U8} {ss : List (List U8)} (he : t.map BitVec.toNat = 34 :: escapes s ++ [34] ++ sumText ss)
    (hb : s ++ ss.flatten = b) : IsString t b := by
  refine ⟨Generated.lines (by decide) (Generated.low_of_map he ?_), fun src hs => ⟨Generated.prog (parse_string he hs), fun Q path hQ g => ?_⟩⟩
  · intro x hx
    have h1 := Generated.escapes_low s x
    have h2 := Generated.sum_low ss x
    simp only [List.mem_append, List.mem_cons, List.not_mem_nil, or_false] at hx
    rcases hx with ((rfl | hx) | rfl) | hx <;> first | omega | exact h1 hx | exact h2 hx
  · rw [← hb]
    exact Generated.run_sum g (hQ.find (Generated.load (parse_string he hs)))

/-- **C117** The quoted form of any bytes is a string with these bytes. -/
theorem C117_quoted (b : List U8) : IsString (quoted b) b :=
  .of (s := b) (ss := []) (by rw [quoted_map]; simp [sumText]) (by simp)

/-- **C117** So is the sum of the quoted sections, for any size of the sections. -/
theorem C117_sum (n : Nat) (hn : 0 < n) (b : List U8) : IsString (stringExpr n b) b := by
  obtain ⟨s, ss, h1, h2⟩ := stringExpr_map hn b
  exact .of h1 h2

/-- **C117** The body with a line for each section is a slice of these bytes. -/
theorem C117_body (n : Nat) (hn : 0 < n) (b : List U8) : IsBody (compositeBody n b) b := by
  refine ⟨Generated.lines (by decide) fun x hx => ?_, fun src hs => ⟨Generated.prog (parse_bytes hn hs), fun Q path hQ g => ?_⟩⟩
  · rcases List.mem_append.mp hx with hx | hx
    · exact (by decide : ∀ x ∈ ascii "[]byte", x.toNat < 128) x hx
    · exact Generated.body_low n b x hx
  · refine ⟨Generated.run_comp g (hQ.find (Generated.load (parse_bytes hn hs))), ?_⟩
    exact IsBytes.has (.inr ⟨_, [], 0, b.length, _, _, rfl, List.getElem?_concat_length, rfl, by simp, by simp, by
      rw [List.drop_zero, List.take_of_length_le (by simp)]⟩)

/-- **C117** Whatever `BytesToString` of the repository returns for bytes, in either build and on any machine, is a string with these bytes: a
program that contains it as source text computes them. -/
theorem C117_string (P : Prog) (bd : _root_.Hex.Build) (hP : Codegen.In P bd) (h h' : List Val) (v : Val) (b : List U8) (hb : HasBytes h v b)
    (hl : Fits P (b.length * 4 + 8)) (r : List Val) (hr : Returns P Codegen.path 0 (n! "BytesToString") [v] h r h') : ∃ t, r = [.str t] ∧ IsString t b := by
  obtain ⟨⟨m, hm⟩, -⟩ := C90_string P bd hP h v b hb hl
  exact ⟨_, (hr.unique hm).1, C117_quoted b⟩

/-- **C117** The same for the functions that make sections. -/
theorem C117_sections (P : Prog) (bd : _root_.Hex.Build) (hP : Codegen.In P bd) (h h' : List Val) (v : Val) (b : List U8) (bps : Nat) (hb : HasBytes h v b)
    (h1 : 1 ≤ bps) (hf : Fits P bps) (hk : P.W = 64 ∨ Fits P (bps * 2)) (hl : Fits P (b.length * 16 + 16)) (r : List Val) :
    (Returns P Codegen.path 0 (n! "BytesToStringSep") [v, .int bps] h r h' → ∃ t, r = [.str t] ∧ IsString t b) ∧
    (Returns P Codegen.path 0 (n! "BytesToHexSep") [v, .int bps] h r h' → ∃ t, r = [.str t] ∧ IsBody t b) := by
  by_cases hm : b = [] ∨ ¬ bps ∣ b.length
  · obtain ⟨⟨m1, p1⟩, m2, p2⟩ := C90_panics P bd hP h v b bps hb h1 hf hk hl hm
    exact ⟨fun hr => absurd p1 hr.not_panics, fun hr => absurd p2 hr.not_panics⟩
  · obtain ⟨h0, hd⟩ := not_or.mp hm
    obtain ⟨⟨m1, r1⟩, -, ⟨m2, r2⟩, -⟩ := C90_sections P bd hP h v b bps hb h1 hf hk hl h0 (not_not.mp hd)
    exact ⟨fun hr => ⟨_, (hr.unique r1).1, C117_sum bps h1 b⟩, fun hr => ⟨_, (hr.unique r2).1, C117_body bps h1 b⟩⟩

/-- **C117** A text stands for one value: no string of bytes has the text of another. -/
theorem C117_one (t b c : List U8) : (IsString t b → IsString t c → b = c) ∧ (IsBody t b → IsBody t c → b = c) := by
  constructor
  · rintro ⟨⟨src, hs⟩, h1⟩ ⟨-, h2⟩
    obtain ⟨Q, hQ⟩ := (h1 src hs).1 0
    have := ((h1 src hs).2 Q 0 hQ []).unique ((h2 src hs).2 Q 0 hQ [])
    simpa using this.1
  · rintro ⟨⟨src, hs⟩, h1⟩ ⟨-, h2⟩
    obtain ⟨Q, hQ⟩ := (h1 src hs).1 0
    have e := (((h1 src hs).2 Q 0 hQ []).1.unique ((h2 src hs).2 Q 0 hQ []).1).2
    simp only [List.nil_append, List.cons.injEq, Val.arr.injEq, and_true] at e
    have := (valBytes_map b).symm.trans ((congrArg valBytes e).trans (valBytes_map c))
    simpa using this

/-! ## Examples -/

/-- Two sections of two bytes, as the file is written. -/
example : LinesOf ["package p", "func F() []byte {", "return []byte{0x01, 0x02, ", "0x03, 0xFF}", "}", ""]
    (returning "[]byte" (ascii "[]byte" ++ compositeBody 2 [1, 2, 3, 255])) := ⟨by simp, by decide +kernel, by decide +kernel⟩

example : LinesOf ["package p", "func F() string {", "return \"\\x01\\x02\"+\"\\x03\\xFF\"", "}", ""] (returning "string" (stringExpr 2 [1, 2, 3, 255])) :=
  ⟨by simp, by decide +kernel, by decide +kernel⟩

/-- That file in a program. -/
example : ∃ Q : Prog, Q.Has 1 [["package p", "func F() []byte {", "return []byte{0x01, 0x02, ", "0x03, 0xFF}", "}", ""]] [] ∧
    Returns Q 1 0 (n! "F") [] [] [.slice 0 [] 0 4 4] [.arr [.u8 1, .u8 2, .u8 3, .u8 255]] := by
  obtain ⟨h1, h2⟩ := (C117_body 2 (by omega) [1, 2, 3, 255]).2 ["package p", "func F() []byte {", "return []byte{0x01, 0x02, ", "0x03, 0xFF}", "}", ""]
    ⟨by simp, by decide +kernel, by decide +kernel⟩
  obtain ⟨Q, hQ⟩ := h1 1
  exact ⟨Q, hQ, (h2 Q 1 hQ []).1⟩

/-- What the text of `BytesToHexSep` returns for four bytes is such a body. -/
example (bd : _root_.Hex.Build) : ∃ t m, Returns (codegenProg bd) Codegen.path 0 (n! "BytesToHexSep") [.slice 0 [] 0 4 4, .int 2] [.arr [.u8 1, .u8 2, .u8 3, .u8 4]]
    [.str t] m ∧ IsBody t [1, 2, 3, 4] := by
  obtain ⟨-, -, ⟨m, r⟩, -⟩ := C90_sections _ bd (codegenProg_in bd) _ _ [1, 2, 3, 4] 2 four_bytes (by omega) (by simp [Fits, codegenProg]) (.inl rfl)
    (by simp [Fits, codegenProg]) (by simp) ⟨2, rfl⟩
  exact ⟨_, _, r, C117_body 2 (by omega) _⟩

end Source
