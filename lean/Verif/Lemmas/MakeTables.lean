import Verif.Model.MakeTables
import Verif.Spec.GoSource
import Verif.Spec.Blocks
import Verif.Lemmas.Hex
import Verif.Lemmas.WhirlpoolGen

namespace MakeTables
open GoSource HexSpec

/-! ## The reader on concatenations -/

@[simp] theorem emit_nil (o : Option (List Tok × LexState)) : emit [] o = o := by
  cases o <;> rfl

theorem emit_emit (a b : List Tok) (o : Option (List Tok × LexState)) : emit a (emit b o) = emit (a ++ b) o := by
  cases o with
  | none => rfl
  | some p => simp [emit]

theorem runLex_append {s s' : LexState} {A : List U8} {ts : List Tok} (h : runLex s A = some (ts, s')) (B : List U8) :
    runLex s (A ++ B) = emit ts (runLex s' B) := by
  induction A generalizing s ts with
  | nil => simp only [runLex, Option.some.injEq, Prod.mk.injEq] at h; obtain ⟨rfl, rfl⟩ := h; simp
  | cons c A ih =>
    rw [List.cons_append, runLex]
    rw [runLex] at h
    cases hc : lexStep s c with
    | none => rw [hc] at h; simp at h
    | some p =>
      obtain ⟨us, s1⟩ := p
      rw [hc] at h
      simp only at h ⊢
      cases hA : runLex s1 A with
      | none => rw [hA] at h; simp [emit] at h
      | some q =>
        obtain ⟨vs, s2⟩ := q
        rw [hA] at h
        simp only [emit, Option.some.injEq, Prod.mk.injEq] at h
        obtain ⟨rfl, rfl⟩ := h
        rw [ih hA, emit_emit]

theorem runLex_trans {s s' s'' : LexState} {A B : List U8} {ts us : List Tok} (h : runLex s A = some (ts, s'))
    (h' : runLex s' B = some (us, s'')) : runLex s (A ++ B) = some (ts ++ us, s'') := by
  rw [runLex_append h, h']; rfl

theorem runLex_word (w l : List U8) (h : l.all isAlnum = true) : runLex (.word w) l = some ([], .word (w ++ l)) := by
  induction l generalizing w with
  | nil => simp [runLex]
  | cons c l ih =>
    simp only [List.all_cons, Bool.and_eq_true] at h
    rw [runLex, lexStep, if_pos h.1]
    simp only [emit_nil]
    rw [ih _ h.2]; simp

theorem runLex_num (w l : List U8) (h : l.all isAlnum = true) : runLex (.num w) l = some ([], .num (w ++ l)) := by
  induction l generalizing w with
  | nil => simp [runLex]
  | cons c l ih =>
    simp only [List.all_cons, Bool.and_eq_true] at h
    rw [runLex, lexStep, if_pos h.1]
    simp only [emit_nil]
    rw [ih _ h.2]; simp

theorem runLex_comment (b : Bool) (l : List U8) (h : ∀ c ∈ l, c ≠ 10#8) : runLex (.comment b) l = some ([], .comment b) := by
  induction l with
  | nil => rfl
  | cons c l ih =>
    rw [runLex, lexStep, if_neg (h c (by simp))]
    simp only [emit_nil]
    exact ih fun x hx => h x (by simp [hx])

/-- An index comment on its own line, where no semicolon is due. -/
theorem runLex_index (i : Nat) : runLex (.gap false) (ascii "//" ++ Hex.fmtNat i ++ ascii "\n") = some ([], .gap false) := by
  have h1 : runLex (.gap false) (ascii "//") = some ([], .comment false) := by decide +kernel
  have h2 : runLex (.comment false) (Hex.fmtNat i) = some ([], .comment false) := runLex_comment _ _ fun c hc e => by
    have := (Hex.fmtNat_isDecimal i).2.1 c hc
    rw [e] at this; simp at this
  exact runLex_trans (runLex_trans h1 h2) (by decide +kernel : runLex (.comment false) (ascii "\n") = some ([], .gap false))

/-- An identifier, then a blank. -/
theorem runLex_ident {name : List U8} (h : IsIdent name) (b : Bool) :
    runLex (.gap b) (name ++ ascii " ") = some ([.word name], .gap true) := by
  obtain ⟨⟨c, t, rfl, hc⟩, hall, hk⟩ := h
  have hc' : ∀ c : U8, isLetter c = true → gapStep b c = some ([], .word [c]) := by
    intro c hc
    have key : ∀ c : U8, isLetter c = true → c ≠ 10#8 ∧ ¬ (c = 32#8 ∨ c = 9#8) ∧ c ≠ 47#8 ∧ c ≠ 34#8 := by
      apply Bits.forall_u8; decide +kernel
    obtain ⟨k1, k2, k3, k4⟩ := key c hc
    rw [gapStep, if_neg k1, if_neg k2, if_neg k3, if_neg k4, if_pos hc]
  have h1 : runLex (.gap b) [c] = some ([], .word [c]) := by
    rw [runLex, lexStep, hc' c hc]; rfl
  have h2 : runLex (.word [c]) t = some ([], .word (c :: t)) := by
    simp only [List.all_cons, Bool.and_eq_true] at hall
    exact runLex_word [c] t hall.2
  have h3 : runLex (.word (c :: t)) (ascii " ") = some ([.word (c :: t)], .gap true) := by
    have : ascii " " = [32#8] := rfl
    rw [this, runLex, lexStep, if_neg (by decide), decide_eq_true hk]
    rfl
  exact runLex_trans (runLex_trans h1 h2) h3

/-! ## Numbers -/

theorem lowerDigit_facts : ∀ n : Fin 16, digitVal (lowerDigit n.val) = some n.val ∧ isAlnum (lowerDigit n.val) = true := by
  decide +kernel

theorem hexPad_alnum : ∀ k n, (hexPad k n).all isAlnum = true
  | 0, _ => rfl
  | k + 1, n => by
    rw [hexPad, List.all_append, hexPad_alnum k, List.all_cons, List.all_nil, Bool.and_true, Bool.true_and]
    exact (lowerDigit_facts ⟨n % 16, Nat.mod_lt _ (by omega)⟩).2

theorem hexPad_length : ∀ k n, (hexPad k n).length = k
  | 0, _ => rfl
  | k + 1, n => by rw [hexPad, List.length_append, hexPad_length k]; rfl

theorem digitsVal_append (b : Nat) (l : List Nat) (d : Nat) : digitsVal b (l ++ [d]) = b * digitsVal b l + d := by
  simp [digitsVal]

theorem hexPad_val : ∀ k n, ∃ ds, (hexPad k n).mapM digitVal = some ds ∧ digitsVal 16 ds = n % 16 ^ k
  | 0, n => ⟨[], rfl, by simp [digitsVal, Nat.mod_one]⟩
  | k + 1, n => by
    obtain ⟨ds, h1, h2⟩ := hexPad_val k (n / 16)
    refine ⟨ds ++ [n % 16], ?_, ?_⟩
    · rw [hexPad, List.mapM_append, h1]
      have := (lowerDigit_facts ⟨n % 16, Nat.mod_lt _ (by omega)⟩).1
      simp only at this
      simp [this]
    · rw [digitsVal_append, h2, Nat.pow_succ, Nat.mul_comm (16 ^ k) 16, Nat.mod_mul]
      omega

theorem intVal_hex {n : Nat} (h : n < 2 ^ 64) : intVal (ascii "0x" ++ hexPad 16 n) = some n := by
  obtain ⟨ds, h1, h2⟩ := hexPad_val 16 n
  have hne : hexPad 16 n ≠ [] := by
    intro e; have := hexPad_length 16 n; rw [e] at this; simp at this
  have h2 : digitsVal 16 ds = n := h2.trans (Nat.mod_eq_of_lt h)
  generalize hexPad 16 n = t at h1 hne
  have e : ascii "0x" ++ t = 48#8 :: 120#8 :: t := rfl
  rw [e, intVal, if_pos rfl]
  simp only
  rw [if_pos ⟨trivial, hne⟩, h1, Option.map_some, h2]

theorem runLex_elem (v : U64) :
    runLex (.gap false) (ascii "0x" ++ hexPad 16 v.toNat ++ ascii ",") = some ([.num v.toNat, .op 44#8], .gap false) := by
  have h1 : runLex (.gap false) (ascii "0x") = some ([], .num (ascii "0x")) := by decide +kernel
  have h2 := runLex_num (ascii "0x") _ (hexPad_alnum 16 v.toNat)
  have h3 : runLex (.num (ascii "0x" ++ hexPad 16 v.toNat)) (ascii ",") =
      some ([.num v.toNat, .op 44#8], .gap false) := by
    have : ascii "," = [44#8] := rfl
    rw [this, runLex, lexStep, if_neg (by decide), intVal_hex v.isLt]
    rfl
  exact runLex_trans (runLex_trans h1 h2) h3

/-! ## `genVar` -/

/-- What one iteration of `genVar` prints. -/
def varItem (v : U64) (i : Nat) : List U8 :=
  (if i > 0 then (if i % 4 = 0 then ascii "\n" else []) else []) ++
  ((if i % 16 = 0 then ascii "//" ++ Hex.fmtNat i ++ ascii "\n" else []) ++
  (ascii "0x" ++ hexPad 16 v.toNat ++ ascii ","))

def varText : List U64 → Nat → List U8
  | [], _ => []
  | v :: data, i => varItem v i ++ varText data (i + 1)

theorem varLoop_eq : ∀ (data : List U64) (i : Nat) (w : List U8), varLoop data i w = w ++ varText data i
  | [], _, w => by simp [varLoop, varText]
  | v :: data, i, w => by
    rw [varLoop, varLoop_eq data, varText, varItem]
    split <;> split <;> (try split) <;> simp

def elemToks (data : List U64) : List Tok := data.flatMap fun v => [.num v.toNat, .op 44#8]

theorem runLex_varItem (v : U64) (i : Nat) :
    runLex (.gap false) (varItem v i) = some ([.num v.toNat, .op 44#8], .gap false) := by
  have h1 : runLex (.gap false) (if i > 0 then (if i % 4 = 0 then ascii "\n" else []) else []) = some ([], .gap false) := by
    split
    · split
      · decide +kernel
      · rfl
    · rfl
  have h2 : runLex (.gap false) (if i % 16 = 0 then ascii "//" ++ Hex.fmtNat i ++ ascii "\n" else []) = some ([], .gap false) := by
    split
    · exact runLex_index i
    · rfl
  exact runLex_trans h1 (runLex_trans h2 (runLex_elem v))

theorem runLex_varText : ∀ (data : List U64) (i : Nat),
    runLex (.gap false) (varText data i) = some (elemToks data, .gap false)
  | [], _ => rfl
  | v :: data, i => by
    rw [varText]
    exact runLex_trans (runLex_varItem v i) (runLex_varText data (i + 1))

def varHead (name : List U8) : List Tok :=
  [.word (ascii "var"), .word name, .op 61#8, .op 91#8, .op 46#8, .op 46#8, .op 46#8, .op 93#8, .word (ascii "uint64"), .op 123#8]

def varToks (name : List U8) (data : List U64) : List Tok :=
  varHead name ++ (elemToks data ++ [.op 125#8, .op 59#8])

def varDecl (name : List U8) (data : List U64) : List U8 :=
  ascii "var " ++ (name ++ ascii " ") ++ ascii "=[...]uint64{\n" ++ (varText data 0 ++ ascii "}\n\n")

theorem genVar_eq (w name : List U8) (data : List U64) : genVar w name data = w ++ varDecl name data := by
  have : ascii " =[...]uint64{\n" = ascii " " ++ ascii "=[...]uint64{\n" := by decide +kernel
  simp only [genVar, varLoop_eq, varDecl, this, List.append_assoc]

theorem runLex_varDecl {name : List U8} (h : IsIdent name) (data : List U64) :
    runLex (.gap false) (varDecl name data) = some (varToks name data, .gap false) := by
  have h1 : runLex (.gap false) (ascii "var ") = some ([.word (ascii "var")], .gap false) := by decide +kernel
  have h2 := runLex_ident h false
  have h3 : runLex (.gap true) (ascii "=[...]uint64{\n") =
      some ([.op 61#8, .op 91#8, .op 46#8, .op 46#8, .op 46#8, .op 93#8, .word (ascii "uint64"), .op 123#8], .gap false) := by
    decide +kernel
  have h4 : runLex (.gap false) (ascii "}\n\n") = some ([.op 125#8, .op 59#8], .gap false) := by decide +kernel
  exact runLex_trans (runLex_trans (runLex_trans h1 h2) h3) (runLex_trans (runLex_varText data 0) h4)

theorem parseElems_toks (data : List U64) (t : List Tok) :
    parseElems (elemToks data ++ .op 125#8 :: t) = some (data.map BitVec.toNat, t) := by
  induction data with
  | nil => simp [elemToks, parseElems]
  | cons v data ih =>
    show parseElems (.num v.toNat :: .op 44#8 :: (elemToks data ++ .op 125#8 :: t)) = _
    rw [parseElems, if_neg (Nat.not_le.mpr v.isLt), if_pos rfl, ih]
    rfl

theorem parseDecls_var {name : List U8} (h : IsIdent name) (data : List U64) (fuel : Nat) (rest : List Tok) :
    parseDecls (fuel + 1) (varToks name data ++ rest) =
      (parseDecls fuel rest).map (.u64s name (data.map BitVec.toNat) :: ·) := by
  have e : varToks name data ++ rest = .word (ascii "var") :: .word name :: .op 61#8 :: .op 91#8 :: .op 46#8 :: .op 46#8 ::
      .op 46#8 :: .op 93#8 :: .word (ascii "uint64") :: .op 123#8 :: (elemToks data ++ .op 125#8 :: .op 59#8 :: rest) := by
    simp [varToks, varHead]
  have h1 : ¬ ((61#8 : U8) ≠ 61#8 ∨ name ∈ keywords) := by
    rintro (h' | h')
    · exact h' rfl
    · exact h.2.2 h'
  rw [e, parseDecls, if_neg h1, if_neg (by decide), if_pos rfl]
  simp only
  rw [if_pos (by decide), parseElems_toks]
  simp only [if_true]

/-! ## `genConst` -/

def escText (l : List U8) : List U8 := l.flatMap fun b => ascii "\\x" ++ encode [b]

theorem escapeLoop_eq : ∀ (l pre w : List U8),
    escapeLoop (pre ++ encode l) l.length pre.length w = .ok (w ++ escText l)
  | [], _, w => by simp [escapeLoop, escText]
  | b :: l, pre, w => by
    have e : encode (b :: l) = encode [b] ++ encode l := by simp [encode]
    have hlen : (encode [b]).length = 2 := rfl
    rw [List.length_cons, escapeLoop, goSlice, if_pos (by rw [e]; simp [hlen])]
    have h1 : (((pre ++ encode (b :: l)).take (pre.length + 2)).drop pre.length) = encode [b] := by
      rw [List.drop_take, e, List.drop_append_of_le_length (by omega), List.drop_length, List.nil_append,
        show pre.length + 2 - pre.length = 2 by omega, List.take_append_of_le_length (by omega), List.take_of_length_le (by omega)]
    rw [h1, Res.ok_bind]
    have := escapeLoop_eq l (pre ++ encode [b]) (w ++ (ascii "\\x" ++ encode [b]))
    rw [List.length_append, hlen] at this
    rw [e, ← List.append_assoc, this]
    simp [escText]

theorem writeU64LE_eq (w : List U8) (v : U64) : writeU64LE w v = .ok (w ++ escText (lePut64 v)) := by
  have h8 : (lePut64 v).length = 8 := rfl
  have := escapeLoop_eq (lePut64 v) [] w
  rw [h8] at this
  rw [writeU64LE, Hex.FromBytes_eq, Res.ok_bind]
  exact this

theorem lePut64_eq (v : U64) : lePut64 v = BlockSpec.leBytes 8 v.toNat := by
  have key : ∀ i, (v >>> (8 * i)).setWidth 8 = BitVec.ofNat 8 (v.toNat / 256 ^ i) := by
    intro i
    apply BitVec.eq_of_toNat_eq
    rw [BitVec.toNat_setWidth, BitVec.toNat_ushiftRight, BitVec.toNat_ofNat, Nat.shiftRight_eq_div_pow, Nat.pow_mul]
  simp only [lePut64, key, BlockSpec.leBytes, Nat.div_div_eq_div_mul, List.range, List.range.loop, List.map]
  simp

/-- What one iteration of `genConst` prints. -/
def constItem (v : U64) (i : Nat) : List U8 :=
  (if i > 0 then (if i % 2 = 0 then ascii "+\n" else ascii "+") else []) ++
  ((if i % 16 = 0 then ascii "//" ++ Hex.fmtNat i ++ ascii "\n" else []) ++
  (ascii "\"" ++ escText (lePut64 v) ++ ascii "\""))

def constText : List U64 → Nat → List U8
  | [], _ => []
  | v :: data, i => constItem v i ++ constText data (i + 1)

theorem constLoop_eq : ∀ (data : List U64) (i : Nat) (w : List U8), constLoop data i w = .ok (w ++ constText data i)
  | [], _, w => by simp [constLoop, constText]
  | v :: data, i, w => by
    rw [constLoop]
    simp only [writeU64LE_eq, Res.ok_bind]
    rw [constLoop_eq data, constText, constItem]
    split <;> split <;> (try split) <;> simp

theorem runLex_escText : ∀ (l s : List U8), runLex (.str s) (escText l) = some ([], .str (s ++ l))
  | [], s => by simp [escText, runLex]
  | b :: l, s => by
    have h1 : ∀ b : U8, digitVal (upperDigit (b.toNat / 16)) = some (b.toNat / 16) ∧
        digitVal (upperDigit (b.toNat % 16)) = some (b.toNat % 16) ∧
        BitVec.ofNat 8 (16 * (b.toNat / 16) + b.toNat % 16) = b := by
      apply Bits.forall_u8; decide +kernel
    obtain ⟨d1, d2, d3⟩ := h1 b
    have e : escText (b :: l) = 92#8 :: 120#8 :: upperDigit (b.toNat / 16) :: upperDigit (b.toNat % 16) :: escText l := by
      simp [escText, encode, ascii]
    have ih := runLex_escText l (s ++ [b])
    rw [e, runLex, lexStep, if_neg (by decide), if_pos rfl]
    simp only [emit_nil]
    rw [runLex, lexStep, if_pos rfl]
    simp only [emit_nil]
    rw [runLex, lexStep, d1]
    simp only [Option.map_some, emit_nil]
    rw [runLex, lexStep, d2]
    simp only [Option.map_some, emit_nil]
    rw [d3, ih]
    simp

/-- The tokens of item `i`. -/
def constItemToks (v : U64) (i : Nat) : List Tok := (if i > 0 then [.op 43#8] else []) ++ [.str (lePut64 v)]

theorem runLex_constItem (v : U64) (i : Nat) :
    runLex (.gap (decide (i > 0))) (constItem v i) = some (constItemToks v i, .gap true) := by
  have h1 : runLex (.gap (decide (i > 0))) (if i > 0 then (if i % 2 = 0 then ascii "+\n" else ascii "+") else []) =
      some (if i > 0 then [.op 43#8] else [], .gap false) := by
    by_cases hi : i > 0
    · rw [if_pos hi, if_pos hi, decide_eq_true hi]
      split <;> decide +kernel
    · rw [if_neg hi, if_neg hi, decide_eq_false hi]; rfl
  have h2 : runLex (.gap false) (if i % 16 = 0 then ascii "//" ++ Hex.fmtNat i ++ ascii "\n" else []) = some ([], .gap false) := by
    split
    · exact runLex_index i
    · rfl
  have h3 : runLex (.gap false) (ascii "\"") = some ([], .str []) := by decide +kernel
  have h4 : runLex (.str (lePut64 v)) (ascii "\"") = some ([.str (lePut64 v)], .gap true) := by
    have : ascii "\"" = [34#8] := rfl
    rw [this, runLex, lexStep, if_pos rfl]; rfl
  exact runLex_trans h1 (runLex_trans h2 (runLex_trans (runLex_trans h3 (runLex_escText (lePut64 v) [])) h4))

def constToks : List U64 → Nat → List Tok
  | [], _ => []
  | v :: data, i => constItemToks v i ++ constToks data (i + 1)

theorem runLex_constText : ∀ (data : List U64) (i : Nat), runLex (.gap (decide (i > 0))) (constText data i) =
    some (constToks data i, .gap (decide (i > 0) || !data.isEmpty))
  | [], i => by simp [constText, runLex, constToks]
  | v :: data, i => by
    have := runLex_constText data (i + 1)
    rw [decide_eq_true (by omega : i + 1 > 0)] at this
    rw [constText, runLex_trans (runLex_constItem v i) this]
    simp [constToks]

theorem parseSum_toks : ∀ (data : List U64) (i : Nat) (s : List U8) (t : List Tok),
    parseSum (.str s :: (constToks data (i + 1) ++ .op 59#8 :: t)) = some (s ++ data.flatMap lePut64, t)
  | [], i, s, t => by simp [constToks, parseSum]
  | v :: data, i, s, t => by
    have e : constToks (v :: data) (i + 1) = .op 43#8 :: .str (lePut64 v) :: constToks data (i + 1 + 1) := by
      simp [constToks, constItemToks]
    rw [e, List.cons_append, List.cons_append, parseSum, if_pos rfl, parseSum_toks data (i + 1)]
    simp

def constDecl (name : List U8) (data : List U64) : List U8 :=
  ascii "const " ++ (name ++ ascii " ") ++ ascii "=\"\"+\n" ++ (constText data 0 ++ ascii "\n\n")

theorem genConst_eq (w name : List U8) (data : List U64) : genConst w name data = .ok (w ++ constDecl name data) := by
  have : ascii " =\"\"+\n" = ascii " " ++ ascii "=\"\"+\n" := by decide +kernel
  simp only [genConst, constLoop_eq, Res.ok_bind, Res.pure_eq, constDecl, this, List.append_assoc]

def constHead (name : List U8) : List Tok :=
  [.word (ascii "const"), .word name, .op 61#8, .str [], .op 43#8]

theorem runLex_constDecl {name : List U8} (h : IsIdent name) (data : List U64) :
    runLex (.gap false) (constDecl name data) =
      some (constHead name ++ (constToks data 0 ++ if data.isEmpty then [] else [.op 59#8]), .gap false) := by
  have h1 : runLex (.gap false) (ascii "const ") = some ([.word (ascii "const")], .gap false) := by decide +kernel
  have h2 := runLex_ident h false
  have h3 : runLex (.gap true) (ascii "=\"\"+\n") = some ([.op 61#8, .str [], .op 43#8], .gap false) := by
    decide +kernel
  have h4 : ∀ b, runLex (.gap (decide (0 > 0) || !b)) (ascii "\n\n") = some (if b then [] else [.op 59#8], .gap false) := by
    decide +kernel
  have h5 := runLex_constText data 0
  rw [show decide (0 > 0) = false from rfl] at h5
  exact runLex_trans (runLex_trans (runLex_trans h1 h2) h3) (runLex_trans h5 (h4 data.isEmpty))

theorem parseDecls_const {name : List U8} (h : IsIdent name) (v : U64) (data : List U64) (fuel : Nat) (rest : List Tok) :
    parseDecls (fuel + 1) (constHead name ++ (constToks (v :: data) 0 ++ [.op 59#8]) ++ rest) =
      (parseDecls fuel rest).map (.str name ((v :: data).flatMap lePut64) :: ·) := by
  have e : constHead name ++ (constToks (v :: data) 0 ++ [.op 59#8]) ++ rest = .word (ascii "const") :: .word name ::
      .op 61#8 :: .str [] :: .op 43#8 :: .str (lePut64 v) :: (constToks data 1 ++ .op 59#8 :: rest) := by
    simp [constHead, constToks, constItemToks]
  have h1 : ¬ ((61#8 : U8) ≠ 61#8 ∨ name ∈ keywords) := by
    rintro (h' | h')
    · exact h' rfl
    · exact h.2.2 h'
  rw [e, parseDecls, if_neg h1, if_pos rfl, parseSum, if_pos rfl, parseSum_toks data 0]
  · simp
  all_goals simp

/-! ## The whole file -/

theorem runLex_header : runLex (.gap false) (header ++ (ascii "const rounds=" ++ Hex.fmtNat Whirlpool.rounds ++ ascii "\n\n")) =
    some ([.word (ascii "package"), .word (ascii "whirlpool"), .op 59#8,
      .word (ascii "const"), .word (ascii "rounds"), .op 61#8, .num 10, .op 59#8], .gap false) := by
  decide +kernel

end MakeTables
