import Verif.Lemmas.GeneratedText
import Verif.Lemmas.Grammar
import Verif.Lemmas.MakeTables
import Verif.Lang.Table

/-! # The tokens of the text of `genVar` and `genConst`, and what the parser makes of them -/
namespace GoLang
open MakeTables

/-! ## Numbers and names -/

theorem lower_val : ∀ n : Fin 16, digitVal (lowerDigit n.val).toNat = n.val := by decide +kernel

theorem lower_digit (n : Nat) (h : n < 16) : HexDigit (lowerDigit n).toNat n := by
  have := lower_val ⟨n, h⟩
  simp only at this
  conv => rhs; rw [← this]
  apply hexDigit_of
  rw [this]
  exact h

theorem digits_append {base n m k : Nat} {l : List Nat} {c d : Nat} (h : Digits base n l m) (hc : HexDigit c d) (hd : d < base) (e : m * base + d = k) :
    Digits base n (l ++ [c]) k := by
  induction h with
  | nil => exact .cons hc hd (e ▸ .nil)
  | cons h1 h2 _ ih => exact .cons h1 h2 (ih e)

theorem pad_digits : ∀ k n, Digits 16 0 ((hexPad k n).map BitVec.toNat) (n % 16 ^ k)
  | 0, n => by simpa [hexPad, Nat.mod_one] using Digits.nil
  | k + 1, n => by
    rw [hexPad, List.map_append]
    refine digits_append (pad_digits k (n / 16)) (lower_digit _ (Nat.mod_lt _ (by omega))) (Nat.mod_lt _ (by omega)) ?_
    rw [Nat.pow_succ, Nat.mul_comm (16 ^ k) 16, Nat.mod_mul]
    omega

/-- A number of a table. -/
def numText (v : U64) : List Nat := 48 :: 120 :: (hexPad 16 v.toNat).map BitVec.toNat

theorem num_word (v : U64) : Word (numText v) (.int v.toNat) := by
  refine .int (.hex ?_ ?_)
  · intro e
    have := congrArg List.length e
    rw [List.length_map, hexPad_length] at this
    simp at this
  · have := pad_digits 16 v.toNat
    rwa [Nat.mod_eq_of_lt (by have := v.isLt; omega)] at this

theorem lower_plain : ∀ n : Fin 16, (lowerDigit n.val).toNat ≠ 10 := by decide +kernel

theorem pad_plain : ∀ k n, 10 ∉ (hexPad k n).map BitVec.toNat
  | 0, _ => by simp [hexPad]
  | k + 1, n => by
    have h1 := pad_plain k (n / 16)
    have h2 := lower_plain ⟨n % 16, Nat.mod_lt _ (by omega)⟩
    rw [hexPad, List.map_append, List.mem_append, not_or]
    refine ⟨h1, ?_⟩
    simp only [List.map_cons, List.map_nil, List.mem_singleton]
    exact fun e => h2 e.symm

theorem num_plain (v : U64) : 10 ∉ numText v := by
  simp only [numText, List.mem_cons, not_or]
  exact ⟨by omega, by omega, pad_plain 16 v.toNat⟩

/-- An identifier is a word. -/
theorem ident_word {name : List U8} (h : GoSource.IsIdent name) : Word (name.map BitVec.toNat) (.id (nameOf (name.map BitVec.toNat))) := by
  obtain ⟨⟨c, t, rfl, hc⟩, hall, -⟩ := h
  have k1 : ∀ c : U8, GoSource.isLetter c = true → Letter c.toNat := by
    intro c h
    simp only [GoSource.isLetter, Bool.or_eq_true, Bool.and_eq_true, decide_eq_true_eq, beq_iff_eq] at h
    simp only [Letter]
    omega
  have k2 : ∀ c : U8, GoSource.isDigit c = true → Decimal c.toNat := by
    intro c h
    simp only [GoSource.isDigit, Bool.and_eq_true, decide_eq_true_eq] at h
    exact h
  refine .id (k1 c hc) ?_
  intro d hd
  obtain ⟨x, hx, rfl⟩ := List.mem_map.mp hd
  have := List.all_eq_true.mp hall x (List.mem_cons_of_mem _ hx)
  rcases Bool.or_eq_true _ _ |>.mp this with h | h
  · exact .inl (k1 x h)
  · exact .inr (k2 x h)

theorem ident_plain {name : List U8} (h : GoSource.IsIdent name) : 10 ∉ name.map BitVec.toNat := by
  intro hm
  obtain ⟨x, hx, e⟩ := List.mem_map.mp hm
  have := List.all_eq_true.mp h.2.1 x hx
  simp only [GoSource.isAlnum, GoSource.isLetter, GoSource.isDigit, Bool.or_eq_true, Bool.and_eq_true, decide_eq_true_eq, beq_iff_eq] at this
  omega

/-! ## The lines of `genVar` -/

/-- The line with the index. -/
def indexLine (i : Nat) : List Nat := 47 :: 47 :: (Hex.fmtNat i).map BitVec.toNat

theorem index_plain (i : Nat) : 10 ∉ (Hex.fmtNat i).map BitVec.toNat := by
  intro hm
  obtain ⟨x, hx, e⟩ := List.mem_map.mp hm
  have := (Hex.fmtNat_isDecimal i).2.1 x hx
  omega

theorem index_line (i : Nat) : LineOf (indexLine i) [] := .comment (index_plain i)

/-- The lines of a table from index `i` on, in a line that begins with `pre`. -/
def tableLines : List U64 → Nat → List Nat → List (List Nat)
  | [], _, pre => [pre ++ [125]]
  | v :: l, i, pre =>
    if i % 16 = 0 then (if i = 0 then [] else [pre]) ++ indexLine i :: tableLines l (i + 1) (numText v ++ [44])
    else if i % 4 = 0 then pre :: tableLines l (i + 1) (numText v ++ [44])
    else tableLines l (i + 1) (pre ++ (numText v ++ [44]))

theorem tableLines_ne : ∀ (l : List U64) (i : Nat) (pre : List Nat), tableLines l i pre ≠ []
  | [], _, _ => by simp [tableLines]
  | v :: l, i, pre => by
    have := tableLines_ne l (i + 1) (pre ++ (numText v ++ [44]))
    simp only [tableLines]
    split
    · simp
    · split
      · simp
      · exact this

theorem item_map (v : U64) (i : Nat) : (varItem v i).map BitVec.toNat =
    (if i > 0 then (if i % 4 = 0 then [10] else []) else []) ++ ((if i % 16 = 0 then indexLine i ++ [10] else []) ++ (numText v ++ [44])) := by
  have e : (ascii "0x" ++ hexPad 16 v.toNat ++ ascii ",").map BitVec.toNat = numText v ++ [44] := by
    simp [numText, ascii]
  rw [varItem, List.map_append, List.map_append, e]
  congr 1
  · split
    · split <;> rfl
    · rfl
  · congr 1
    split
    · simp [indexLine, ascii]
    · rfl

theorem intercalate_line (x : List Nat) {l : List (List Nat)} (h : l ≠ []) : [10].intercalate (x :: l) = x ++ 10 :: [10].intercalate l := by
  obtain ⟨y, l, rfl⟩ := List.exists_cons_of_ne_nil h
  exact intercalate_two x y l

theorem table_text : ∀ (l : List U64) (i : Nat) (pre : List Nat), (i = 0 → pre = []) →
    [10].intercalate (tableLines l i pre) = pre ++ (varText l i).map BitVec.toNat ++ [125]
  | [], i, pre, _ => by simp [tableLines, varText, intercalate_one]
  | v :: l, i, pre, h => by
    rw [varText, List.map_append, item_map, tableLines]
    have ih := fun pre => table_text l (i + 1) pre (by omega)
    by_cases h1 : i % 16 = 0
    · rw [if_pos h1, if_pos h1]
      by_cases h0 : i = 0
      · rw [if_pos h0, if_neg (by omega), h h0, List.nil_append, intercalate_line _ (tableLines_ne _ _ _), ih]
        simp
      · rw [if_neg h0, if_pos (by omega), if_pos (by omega), List.singleton_append, intercalate_two, intercalate_line _ (tableLines_ne _ _ _), ih]
        simp
    · rw [if_neg h1, if_neg h1]
      by_cases h2 : i % 4 = 0
      · rw [if_pos h2, if_pos (by omega), if_pos h2, intercalate_line _ (tableLines_ne _ _ _), ih]
        simp
      · rw [if_neg h2, ih, if_neg h2]
        simp

theorem table_plain : ∀ (l : List U64) (i : Nat) (pre : List Nat), 10 ∉ pre → ∀ x ∈ tableLines l i pre, 10 ∉ x
  | [], _, pre, h, x, hx => by
    simp only [tableLines, List.mem_singleton] at hx
    subst hx
    simp [h]
  | v :: l, i, pre, h, x, hx => by
    have k : 10 ∉ numText v ++ [44] := by simp [num_plain]
    have ih := table_plain l (i + 1)
    rw [tableLines] at hx
    split at hx
    · rcases List.mem_append.mp hx with hx | hx
      · split at hx
        · simp at hx
        · rw [List.mem_singleton.mp hx]
          exact h
      · rcases List.mem_cons.mp hx with rfl | hx
        · simp only [indexLine, List.mem_cons, not_or]
          exact ⟨by omega, by omega, index_plain i⟩
        · exact ih _ k x hx
    · split at hx
      · rcases List.mem_cons.mp hx with rfl | hx
        · exact h
        · exact ih _ k x hx
      · exact ih _ (by simp [h, num_plain]) x hx

/-- A line may end here, or go on with a number or a brace. -/
def Ready (pre : List Nat) (us : List Tok) : Prop := Before pre us ∧ LineOf pre us ∧ LineEnd us us

theorem ready_nil : Ready [] [] := ⟨before_nil, .nil, .nil⟩

theorem ready_num {pre : List Nat} {us : List Tok} (h : Ready pre us) (v : U64) : Ready (pre ++ (numText v ++ [44])) (us ++ [.int v.toNat, .op (n! ",")]) := by
  have w : ∀ l ts, LineOf (44 :: l) ts → LineOf (numText v ++ 44 :: l) (.int v.toNat :: ts) := fun l ts hl => .word (num_word v) (by
    rintro d r e
    obtain ⟨rfl, -⟩ := List.cons.inj e
    simp [Letter, Decimal]) hl
  have p : ∀ l ts, LineOf (44 :: l) ts → LineOf (pre ++ (numText v ++ 44 :: l)) (us ++ .int v.toNat :: ts) := fun l ts hl =>
    h.1 48 _ _ (.inl rfl) (w l ts hl)
  refine ⟨fun c l ts hc hl => ?_, ?_, ?_⟩
  · have := p (c :: l) _ (op_line (c := 44) (by decide) (by rcases hc with rfl | rfl <;> decide) (by decide) hl)
    rw [List.append_assoc, List.append_assoc, List.append_assoc]
    exact this
  · exact p [] _ (op_end (c := 44) (by decide) (by decide))
  · have := LineEnd.open (ts := us ++ [.int v.toNat]) comma_open
    simpa using this

theorem table_toks : ∀ (l : List U64) (i : Nat) (pre : List Nat) (us : List Tok), Ready pre us → (i = 0 → us = []) →
    ∀ {rest : List (List Nat)} {vs : List Tok}, LinesTok rest vs →
    LinesTok (tableLines l i pre ++ rest) (us ++ (commas (l.map BitVec.toNat) ++ .op (n! "}") :: .op (n! ";") :: vs))
  | [], _, pre, us, hp, _, rest, vs, hr => by
    have h := hp.1 125 [] _ (.inr rfl) brace_line
    have := LinesTok.cons h (.semi brace_ends) hr
    simpa [tableLines, commas] using this
  | v :: l, i, pre, us, hp, h0, rest, vs, hr => by
    have ih := fun pre us (h : Ready pre us) => table_toks l (i + 1) pre us h (by omega) hr
    have i1 := ih _ _ (ready_num ready_nil v)
    simp only [List.nil_append] at i1
    have e : us ++ (commas ((v :: l).map BitVec.toNat) ++ .op (n! "}") :: .op (n! ";") :: vs) =
        us ++ ([.int v.toNat, .op (n! ",")] ++ (commas (l.map BitVec.toNat) ++ .op (n! "}") :: .op (n! ";") :: vs)) := by simp [commas]
    rw [e, tableLines]
    have i2 := LinesTok.cons (index_line i) .nil i1
    by_cases h1 : i % 16 = 0
    · rw [if_pos h1]
      by_cases h2 : i = 0
      · rw [if_pos h2, h0 h2]
        exact i2
      · rw [if_neg h2]
        exact .cons hp.2.1 hp.2.2 i2
    · rw [if_neg h1]
      by_cases h2 : i % 4 = 0
      · rw [if_pos h2]
        exact .cons hp.2.1 hp.2.2 i1
      · rw [if_neg h2]
        have := ih _ _ (ready_num hp v)
        simpa using this

/-- The lines of a declaration. -/
def varLines (name : List U8) (l : List U64) : List (List Nat) :=
  (bytesOf "var " ++ (name.map BitVec.toNat ++ bytesOf " =[...]uint64{")) :: (tableLines l 0 [] ++ [[]])

theorem var_text (name : List U8) (l : List U64) : [10].intercalate (varLines name l ++ [[]]) = (varDecl name l).map BitVec.toNat := by
  rw [varLines, List.cons_append, List.append_assoc, intercalate_line _ (by simp), intercalate_append _ (by simp) _ (tableLines_ne _ _ _), table_text l 0 [] (fun _ => rfl)]
  simp only [varDecl, List.map_append, List.append_assoc, List.nil_append]
  rfl

/-- The tokens of a declaration. -/
def varTokens (name : List U8) (l : List U64) : List Tok :=
  [.id (n! "var"), .id (nameOf (name.map BitVec.toNat)), .op (n! "="), .op (n! "["), .op (n! "..."), .op (n! "]"), .id (n! "uint64"), .op (n! "{")] ++
    (commas (l.map BitVec.toNat) ++ [.op (n! "}"), .op (n! ";")])

theorem var_toks {name : List U8} (h : GoSource.IsIdent name) (l : List U64) {rest : List (List Nat)} {vs : List Tok} (hr : LinesTok rest vs) :
    LinesTok (varLines name l ++ rest) (varTokens name l ++ vs) := by
  have h1 : LineOf (bytesOf " =[...]uint64{") [.op (n! "="), .op (n! "["), .op (n! "..."), .op (n! "]"), .id (n! "uint64"), .op (n! "{")] := line_of rfl rfl
  have h2 : LineOf (name.map BitVec.toNat ++ bytesOf " =[...]uint64{") (.id (nameOf (name.map BitVec.toNat)) :: _) := .word (ident_word h) (by
    rintro d r e
    obtain ⟨rfl, -⟩ := List.cons.inj e
    simp [Letter, Decimal]) h1
  have h3 : LineOf (bytesOf "var " ++ (name.map BitVec.toNat ++ bytesOf " =[...]uint64{")) (.id (n! "var") :: _) :=
    .word (w := [118, 97, 114]) (.id (by simp [Letter]) (by simp [Letter])) (by
      rintro d r e
      obtain ⟨rfl, -⟩ := List.cons.inj e
      simp [Letter, Decimal]) (.blank (.inl rfl) h2)
  have h4 := table_toks l 0 [] [] ready_nil (fun _ => rfl) (.cons .nil .nil hr)
  have := LinesTok.cons h3 (.open (ts := [_, _, _, _, _, _, _]) (by simp [EndsStmt, Name])) h4
  simpa [varLines, varTokens] using this

theorem var_plain {name : List U8} (h : GoSource.IsIdent name) (l : List U64) : ∀ x ∈ varLines name l, 10 ∉ x := by
  intro x hx
  rcases List.mem_cons.mp hx with rfl | hx
  · rw [List.mem_append, List.mem_append, not_or, not_or]
    exact ⟨by decide, ident_plain h, by decide⟩
  · rcases List.mem_append.mp hx with hx | hx
    · exact table_plain l 0 [] (by simp) x hx
    · rw [List.mem_singleton.mp hx]
      simp

/-! ## The lines of `genConst` -/

/-- The literal of a number. -/
def wordText (v : U64) : List Nat := 34 :: escapes (lePut64 v) ++ [34]

/-- The lines of a sum from index `i` on, in a line that begins with `pre`. -/
def sumLines : List U64 → Nat → List Nat → List (List Nat)
  | [], _, pre => [pre]
  | v :: l, i, pre =>
    if i = 0 then indexLine i :: sumLines l (i + 1) (wordText v)
    else if i % 16 = 0 then (pre ++ [43]) :: indexLine i :: sumLines l (i + 1) (wordText v)
    else if i % 2 = 0 then (pre ++ [43]) :: sumLines l (i + 1) (wordText v)
    else sumLines l (i + 1) (pre ++ 43 :: wordText v)

theorem sumLines_ne : ∀ (l : List U64) (i : Nat) (pre : List Nat), sumLines l i pre ≠ []
  | [], _, _ => by simp [sumLines]
  | v :: l, i, pre => by
    have := sumLines_ne l (i + 1) (pre ++ 43 :: wordText v)
    simp only [sumLines]
    split
    · simp
    · split
      · simp
      · split
        · simp
        · exact this

theorem citem_map (v : U64) (i : Nat) : (constItem v i).map BitVec.toNat =
    (if i > 0 then (if i % 2 = 0 then [43, 10] else [43]) else []) ++ ((if i % 16 = 0 then indexLine i ++ [10] else []) ++ wordText v) := by
  have e : (ascii "\"" ++ escText (lePut64 v) ++ ascii "\"").map BitVec.toNat = wordText v := quoted_map (lePut64 v)
  rw [constItem, List.map_append, List.map_append, e]
  congr 1
  · split
    · split <;> rfl
    · rfl
  · congr 1
    split
    · simp [indexLine, ascii]
    · rfl

theorem sums_text : ∀ (l : List U64) (i : Nat) (pre : List Nat), (i = 0 → pre = []) →
    [10].intercalate (sumLines l i pre) = pre ++ (constText l i).map BitVec.toNat
  | [], i, pre, _ => by simp [sumLines, constText, intercalate_one]
  | v :: l, i, pre, h => by
    rw [constText, List.map_append, citem_map, sumLines]
    have ih := fun pre => sums_text l (i + 1) pre (by omega)
    by_cases h0 : i = 0
    · rw [if_pos h0, if_neg (show ¬ i > 0 by omega), if_pos (show i % 16 = 0 by omega), h h0, intercalate_line _ (sumLines_ne _ _ _), ih]
      simp
    · rw [if_neg h0, if_pos (show i > 0 by omega)]
      by_cases h1 : i % 16 = 0
      · rw [if_pos h1, if_pos h1, if_pos (show i % 2 = 0 by omega), intercalate_two, intercalate_line _ (sumLines_ne _ _ _), ih]
        simp
      · rw [if_neg h1, if_neg h1]
        by_cases h2 : i % 2 = 0
        · rw [if_pos h2, if_pos h2, intercalate_line _ (sumLines_ne _ _ _), ih]
          simp
        · rw [if_neg h2, if_neg h2, ih]
          simp

theorem word_plain (v : U64) : 10 ∉ wordText v := by simp [wordText, escapes_plain]

theorem sums_plain : ∀ (l : List U64) (i : Nat) (pre : List Nat), 10 ∉ pre → ∀ x ∈ sumLines l i pre, 10 ∉ x
  | [], _, pre, h, x, hx => by
    simp only [sumLines, List.mem_singleton] at hx
    subst hx
    exact h
  | v :: l, i, pre, h, x, hx => by
    have ih := sums_plain l (i + 1)
    have k : 10 ∉ indexLine i := by
      simp only [indexLine, List.mem_cons, not_or]
      exact ⟨by omega, by omega, index_plain i⟩
    have k2 : 10 ∉ pre ++ [43] := by simp [h]
    rw [sumLines] at hx
    split at hx
    · rcases List.mem_cons.mp hx with rfl | hx
      · exact k
      · exact ih _ (word_plain v) x hx
    · split at hx
      · rcases List.mem_cons.mp hx with rfl | hx
        · exact k2
        · rcases List.mem_cons.mp hx with rfl | hx
          · exact k
          · exact ih _ (word_plain v) x hx
      · split at hx
        · rcases List.mem_cons.mp hx with rfl | hx
          · exact k2
          · exact ih _ (word_plain v) x hx
        · exact ih _ (by simp [h, word_plain]) x hx

/-- A line may end here, or go on with `+`. -/
def ReadySum (pre : List Nat) (us : List Tok) : Prop :=
  (∀ l ts, LineOf (43 :: l) ts → LineOf (pre ++ 43 :: l) (us ++ ts)) ∧ LineOf pre us ∧ LineEnd us (us ++ [.op (n! ";")])

def wordToks (v : U64) : List Nat := (lePut64 v).map BitVec.toNat

theorem word_line (v : U64) {l : List Nat} {ts : List Tok} (h : LineOf l ts) : LineOf (wordText v ++ l) (.str (wordToks v) :: ts) :=
  .quoted (.str (escapes_lits _)) h

theorem readySum_one (v : U64) : ReadySum (wordText v) [.str (wordToks v)] := by
  refine ⟨fun l ts h => word_line v h, ?_, .semi (ts := []) trivial⟩
  have := word_line v .nil
  rwa [List.append_nil] at this

theorem readySum_more {pre : List Nat} {us : List Tok} (h : ReadySum pre us) (v : U64) :
    ReadySum (pre ++ 43 :: wordText v) (us ++ [.op (n! "+"), .str (wordToks v)]) := by
  have p : ∀ l ts, LineOf (wordText v ++ l) ts → LineOf (pre ++ 43 :: (wordText v ++ l)) (us ++ .op (n! "+") :: ts) := fun l ts hl =>
    h.1 _ _ (op_line (c := 43) (d := 34) (by decide) (by decide) (by decide) hl)
  refine ⟨fun l ts hl => ?_, ?_, ?_⟩
  · have := p _ _ (word_line v hl)
    rw [List.append_assoc, List.append_assoc]
    exact this
  · have := p [] _ (word_line v .nil)
    rwa [List.append_nil] at this
  · have := LineEnd.semi (ts := us ++ [.op (n! "+")]) (t := .str (wordToks v)) trivial
    simpa using this

theorem plus_open : ¬ EndsStmt (.op (n! "+")) := by simp [EndsStmt, Name]

theorem plus_line {pre : List Nat} {us : List Tok} (h : ReadySum pre us) : LineOf (pre ++ [43]) (us ++ [.op (n! "+")]) :=
  h.1 [] _ (op_end (c := 43) (by decide) (by decide))

theorem sum_toks : ∀ (l : List U64) (i : Nat) (pre : List Nat) (us : List Tok), 0 < i → ReadySum pre us →
    ∀ {rest : List (List Nat)} {vs : List Tok}, LinesTok rest vs →
    LinesTok (sumLines l i pre ++ rest) (us ++ (plusToks (l.map wordToks) ++ .op (n! ";") :: vs))
  | [], _, pre, us, _, hp, rest, vs, hr => by
    have := LinesTok.cons hp.2.1 hp.2.2 hr
    simpa [sumLines, plusToks] using this
  | v :: l, i, pre, us, h0, hp, rest, vs, hr => by
    have ih := fun pre us (h : ReadySum pre us) => sum_toks l (i + 1) pre us (by omega) h hr
    have i1 := ih _ _ (readySum_one v)
    have e : us ++ (plusToks ((v :: l).map wordToks) ++ .op (n! ";") :: vs) =
        us ++ [.op (n! "+")] ++ ([.str (wordToks v)] ++ (plusToks (l.map wordToks) ++ .op (n! ";") :: vs)) := by simp [plusToks]
    rw [e, sumLines, if_neg (by omega)]
    by_cases h1 : i % 16 = 0
    · rw [if_pos h1]
      have i2 := LinesTok.cons (index_line i) .nil i1
      exact .cons (plus_line hp) (.open plus_open) i2
    · rw [if_neg h1]
      by_cases h2 : i % 2 = 0
      · rw [if_pos h2]
        exact .cons (plus_line hp) (.open plus_open) i1
      · rw [if_neg h2]
        have := ih _ _ (readySum_more hp v)
        simpa using this

/-- The lines of a declaration of a constant. -/
def constLines (name : List U8) (l : List U64) : List (List Nat) :=
  (bytesOf "const " ++ (name.map BitVec.toNat ++ bytesOf " =\"\"+")) :: (sumLines l 0 [] ++ [[]])

theorem const_text (name : List U8) (l : List U64) : [10].intercalate (constLines name l ++ [[]]) = (constDecl name l).map BitVec.toNat := by
  rw [constLines, List.cons_append, List.append_assoc, intercalate_line _ (by simp), intercalate_append _ (by simp) _ (sumLines_ne _ _ _), sums_text l 0 [] (fun _ => rfl)]
  simp only [constDecl, List.map_append, List.append_assoc, List.nil_append]
  rfl

theorem const_head {name : List U8} (h : GoSource.IsIdent name) : LineOf (bytesOf "const " ++ (name.map BitVec.toNat ++ bytesOf " =\"\"+"))
    [.id (n! "const"), .id (nameOf (name.map BitVec.toNat)), .op (n! "="), .str [], .op (n! "+")] := by
  have h1 : LineOf (bytesOf " =\"\"+") [.op (n! "="), .str [], .op (n! "+")] := line_of rfl rfl
  have h2 : LineOf (name.map BitVec.toNat ++ bytesOf " =\"\"+") (.id (nameOf (name.map BitVec.toNat)) :: _) := .word (ident_word h) (by
    rintro d r e
    obtain ⟨rfl, -⟩ := List.cons.inj e
    simp [Letter, Decimal]) h1
  exact .word (w := [99, 111, 110, 115, 116]) (.id (by simp [Letter]) (by simp [Letter])) (by
      rintro d r e
      obtain ⟨rfl, -⟩ := List.cons.inj e
      simp [Letter, Decimal]) (.blank (.inl rfl) h2)

/-- The tokens of a declaration of a constant. -/
def constTokens (name : List U8) (l : List U64) : List Tok :=
  [.id (n! "const"), .id (nameOf (name.map BitVec.toNat)), .op (n! "="), .str []] ++ (plusToks (l.map wordToks) ++ [.op (n! ";")])

theorem const_toks {name : List U8} (h : GoSource.IsIdent name) {l : List U64} (hl : l ≠ []) {rest : List (List Nat)} {vs : List Tok} (hr : LinesTok rest vs) :
    LinesTok (constLines name l ++ rest) (constTokens name l ++ vs) := by
  obtain ⟨v, l, rfl⟩ := List.exists_cons_of_ne_nil hl
  have h4 := sum_toks l 1 _ _ (by omega) (readySum_one v) (.cons .nil .nil hr)
  have h5 := LinesTok.cons (index_line 0) .nil h4
  have := LinesTok.cons (const_head h) (.open (ts := [_, _, _, _]) plus_open) h5
  simpa [constLines, constTokens, sumLines, plusToks] using this

theorem const_toks_empty {name : List U8} (h : GoSource.IsIdent name) {rest : List (List Nat)} {vs : List Tok} (hr : LinesTok rest vs) :
    LinesTok (constLines name [] ++ rest) ([.id (n! "const"), .id (nameOf (name.map BitVec.toNat)), .op (n! "="), .str [], .op (n! "+")] ++ vs) := by
  have := LinesTok.cons (const_head h) (.open (ts := [_, _, _, _]) plus_open) (.cons .nil .nil (.cons .nil .nil hr))
  simpa [constLines, sumLines] using this

theorem const_plain {name : List U8} (h : GoSource.IsIdent name) (l : List U64) : ∀ x ∈ constLines name l, 10 ∉ x := by
  intro x hx
  rcases List.mem_cons.mp hx with rfl | hx
  · rw [List.mem_append, List.mem_append, not_or, not_or]
    exact ⟨by decide, ident_plain h, by decide⟩
  · rcases List.mem_append.mp hx with hx | hx
    · exact sums_plain l 0 [] (by simp) x hx
    · rw [List.mem_singleton.mp hx]
      simp

/-! ## The parser -/

/-- The declarations as trees. -/
def varTree (name : List U8) (l : List U64) : Decl :=
  .var (nameOf (name.map BitVec.toNat)) .none (.comp (.dots (.name (n! "uint64"))) (ofInts (l.map BitVec.toNat) .nil))

def constTree (name : List U8) (l : List U64) : Decl := .const (nameOf (name.map BitVec.toNat)) (strSum (.str []) (l.map wordToks))

theorem ident_ok {n : Name} (h : IsIdent n) (l : List Tok) : ident (.id n :: l) = some (n, l) := by
  have e : ident (.id n :: l) = (if elemN n reserved then fail else P.pure n : P Name) l := rfl
  rw [e, isIdent_iff.mp h]
  rfl

theorem ident_fail {n : Name} (h : ¬ IsIdent n) (l : List Tok) : ident (.id n :: l) = none := by
  have e : ident (.id n :: l) = (if elemN n reserved then fail else P.pure n : P Name) l := rfl
  rw [isIdent_iff, Bool.not_eq_false] at h
  rw [e, h]
  rfl

theorem bind_none {α β : Type} {x : P α} {f : α → P β} {l : List Tok} (h : x l = none) : P.bind x f l = none := by
  simp only [P.bind, h]

theorem pConst_open (G : Nat) {n : Name} (h : IsIdent n) (l : List Tok) : pConst G (.id n :: .op (n! "=") :: l) = P.bind (pExpr G 1 false) (fun e => P.pure (.const n e)) l :=
  (bind_some (ident_ok h _)).trans rfl

theorem pVar_open (G : Nat) {n : Name} (h : IsIdent n) (l : List Tok) : pVar G (.id n :: .op (n! "=") :: l) = P.bind (pExpr G 1 false) (fun e => P.pure (.var n .none e)) l :=
  (bind_some (ident_ok h _)).trans rfl

theorem pDecls_const (G k : Nat) (n : Name) (l : List Tok) : pDecls G (k + 1) (.id (n! "const") :: .id n :: l) =
    P.bind (P.bind (pConst G) fun a => P.pure [a]) (fun cs => P.bind (expect (n! ";")) fun _ => P.bind (pDecls G k) fun ds => P.pure (cs ++ ds)) (.id n :: l) := by kernel_rfl

theorem pDecls_var' (G k : Nat) (n : Name) (l : List Tok) : pDecls G (k + 1) (.id (n! "var") :: .id n :: l) =
    P.bind (P.bind (pVar G) fun a => P.pure [a]) (fun cs => P.bind (expect (n! ";")) fun _ => P.bind (pDecls G k) fun ds => P.pure (cs ++ ds)) (.id n :: l) := by kernel_rfl

theorem pDecls_table {name : List U8} (hi : IsIdent (nameOf (name.map BitVec.toNat))) {l : List U64} {g k : Nat} {rest r : List Tok} {ds : List Decl} (h : pDecls (g + l.length + 12) k rest = some (ds, r)) :
    pDecls (g + l.length + 12) (k + 1) (varTokens name l ++ rest) = some (varTree name l :: ds, r) := by
  generalize hn : nameOf (name.map BitVec.toNat) = n at *
  have h1 : pElts (g + l.length + 9) (commas (l.map BitVec.toNat) ++ .op (n! "}") :: .op (n! ";") :: rest) = some (ofInts (l.map BitVec.toNat) .nil, .op (n! ";") :: rest) := by
    have := pElts_ints (g + 5) (l.map BitVec.toNat) (.op (n! "}") :: .op (n! ";") :: rest)
    rw [List.length_map, show g + 5 + 4 + l.length = g + l.length + 9 by omega] at this
    rw [this]
    rfl
  have e : varTokens name l ++ rest = .id (n! "var") :: .id n :: .op (n! "=") :: .op (n! "[") :: .op (n! "...") :: .op (n! "]") :: .id (n! "uint64") :: .op (n! "{") ::
      (commas (l.map BitVec.toNat) ++ .op (n! "}") :: .op (n! ";") :: rest) := by
    simp [varTokens, hn]
  have h2 : pExpr (g + l.length + 12) 1 false (.op (n! "[") :: .op (n! "...") :: .op (n! "]") :: .id (n! "uint64") :: .op (n! "{") ::
      (commas (l.map BitVec.toNat) ++ .op (n! "}") :: .op (n! ";") :: rest)) =
      some (.comp (.dots (.name (n! "uint64"))) (ofInts (l.map BitVec.toNat) .nil), .op (n! ";") :: rest) := by
    have : pExpr (g + l.length + 12) 1 false (.op (n! "[") :: .op (n! "...") :: .op (n! "]") :: .id (n! "uint64") :: .op (n! "{") ::
      (commas (l.map BitVec.toNat) ++ .op (n! "}") :: .op (n! ";") :: rest)) =
        P.bind (fun _ => P.bind (pElts (g + l.length + 9)) (fun es => pSuffix (g + l.length + 9) false (.comp (.dots (.name (n! "uint64"))) es))
        (commas (l.map BitVec.toNat) ++ .op (n! "}") :: .op (n! ";") :: rest)) (fun a => pBin (g + l.length + 11) 1 false a) [] := rfl
    rw [this]
    refine (bind_some (a := .comp (.dots (.name (n! "uint64"))) (ofInts (l.map BitVec.toNat) .nil)) (l' := .op (n! ";") :: rest) ?_).trans rfl
    exact (bind_some h1).trans rfl
  rw [e, varTree, hn]
  have h4 := pVar_open (g + l.length + 12) hi (.op (n! "[") :: .op (n! "...") :: .op (n! "]") :: .id (n! "uint64") :: .op (n! "{") ::
      (commas (l.map BitVec.toNat) ++ .op (n! "}") :: .op (n! ";") :: rest))
  rw [pDecls_var']
  refine (bind_some (bind_some (h4.trans (bind_some h2)))).trans ?_
  refine (bind_some (a := ()) (l' := rest) rfl).trans ?_
  exact bind_some h

theorem pDecls_sum {name : List U8} (hi : IsIdent (nameOf (name.map BitVec.toNat))) {l : List U64} {g k : Nat} {rest r : List Tok} {ds : List Decl} (h : pDecls (g + l.length + 6) k rest = some (ds, r)) :
    pDecls (g + l.length + 6) (k + 1) (constTokens name l ++ rest) = some (constTree name l :: ds, r) := by
  generalize hn : nameOf (name.map BitVec.toNat) = n at *
  have h2 := pExpr_sum [] (l.map wordToks) g rest
  rw [List.length_map] at h2
  have e : constTokens name l ++ rest = .id (n! "const") :: .id n :: .op (n! "=") :: .str [] :: (plusToks (l.map wordToks) ++ .op (n! ";") :: rest) := by
    simp [constTokens, hn]
  rw [e, constTree, hn]
  rw [pDecls_const]
  refine (bind_some (bind_some ((pConst_open _ hi _).trans (bind_some h2)))).trans ?_
  refine (bind_some (a := ()) (l' := rest) rfl).trans ?_
  exact bind_some h

/-- A keyword in the place of the name. -/
theorem pDecls_keyword {n : Name} (h : ¬ IsIdent n) (G k : Nat) (l : List Tok) :
    pDecls G (k + 1) (.id (n! "var") :: .id n :: l) = none ∧ pDecls G (k + 1) (.id (n! "const") :: .id n :: l) = none := by
  rw [pDecls_const, pDecls_var']
  exact ⟨bind_none (bind_none (bind_none (ident_fail h l))), bind_none (bind_none (bind_none (ident_fail h l)))⟩

/-! ## Files -/

theorem pFile_open (G : Nat) {p kw n : Name} (hp : IsIdent p) (hk : kw = n! "const" ∨ kw = n! "var") (l : List Tok) :
    pFile (G + 1) (.id (n! "package") :: .id p :: .op (n! ";") :: .id kw :: .id n :: l) = P.bind (pDecls (G + 1) (G + 1)) (fun ds => P.pure (⟨p, [], ds⟩ : File)) (.id kw :: .id n :: l) := by
  have e : pFile (G + 1) (.id (n! "package") :: .id p :: .op (n! ";") :: .id kw :: .id n :: l) = P.bind ident (fun p => P.bind (expect (n! ";")) fun _ =>
    P.bind (pImports (G + 1) (G + 1)) fun is => P.bind (pDecls (G + 1) (G + 1)) (fun ds => P.pure (⟨p, is, ds⟩ : File))) (.id p :: .op (n! ";") :: .id kw :: .id n :: l) := rfl
  rw [e, bind_some (ident_ok hp _)]
  rcases hk with rfl | rfl <;> rfl

theorem parse_none {s : List String} {ts : List Tok} (h : lex s = some ts) (h' : pFile (ts.length + 1) ts = none) : parse s = none := by
  simp only [parse, h, h']

theorem parse_some {s : List String} {ts : List Tok} {t : File} (h : lex s = some ts) (h' : pFile (ts.length + 1) ts = some (t, [])) : parse s = some t := by
  simp only [parse, h, h']

/-- The line of the package, and the rest of a file. -/
theorem package_lines {rest : List (List Nat)} {vs : List Tok} (h : LinesTok rest vs) :
    LinesTok (bytesOf "package p" :: rest) (.id (n! "package") :: .id (n! "p") :: .op (n! ";") :: vs) :=
  LinesTok.cons (line_of (ts := [.id (n! "package"), .id (n! "p")]) rfl rfl) (.semi (ts := [.id (n! "package")]) (name_ends (by decide))) h

theorem package_ident : IsIdent (n! "p") := isIdent_iff.mpr (by decide +kernel)

theorem table_lex {name : List U8} (h : GoSource.IsIdent name) {l : List U64} {src : List String} (hs : LinesOf src (ascii "package p\n" ++ varDecl name l)) :
    lex src = some (.id (n! "package") :: .id (n! "p") :: .op (n! ";") :: varTokens name l) := by
  have e := lines_eq hs (l := bytesOf "package p" :: (varLines name l ++ [[]])) (by simp) (by
    intro x hx
    rcases List.mem_cons.mp hx with rfl | hx
    · decide
    · rcases List.mem_append.mp hx with hx | hx
      · exact var_plain h l x hx
      · rw [List.mem_singleton.mp hx]
        simp) (by
    rw [intercalate_line _ (by simp), var_text, List.map_append]
    rfl)
  have := package_lines (var_toks h l (.cons .nil .nil .nil))
  rw [← e] at this
  have := lex_complete (textOf_lines this)
  simpa using this

theorem sum_lex {name : List U8} (h : GoSource.IsIdent name) {l : List U64} {src : List String} (hs : LinesOf src (ascii "package p\n" ++ constDecl name l)) :
    lex src = some (.id (n! "package") :: .id (n! "p") :: .op (n! ";") ::
      if l = [] then [.id (n! "const"), .id (nameOf (name.map BitVec.toNat)), .op (n! "="), .str [], .op (n! "+")] else constTokens name l) := by
  have e := lines_eq hs (l := bytesOf "package p" :: (constLines name l ++ [[]])) (by simp) (by
    intro x hx
    rcases List.mem_cons.mp hx with rfl | hx
    · decide
    · rcases List.mem_append.mp hx with hx | hx
      · exact const_plain h l x hx
      · rw [List.mem_singleton.mp hx]
        simp) (by
    rw [intercalate_line _ (by simp), const_text, List.map_append]
    rfl)
  by_cases hl : l = []
  · subst hl
    have := package_lines (const_toks_empty h (.cons .nil .nil .nil))
    rw [← e] at this
    exact lex_complete (textOf_lines this)
  · have := package_lines (const_toks h hl (.cons .nil .nil .nil))
    rw [← e] at this
    have := lex_complete (textOf_lines this)
    rw [if_neg hl]
    simpa using this

/-- The file of a table, parsed. -/
theorem parse_table {name : List U8} (h : GoSource.IsIdent name) {l : List U64} {src : List String} (hs : LinesOf src (ascii "package p\n" ++ varDecl name l)) :
    (IsIdent (nameOf (name.map BitVec.toNat)) → parse src = some ⟨n! "p", [], [varTree name l]⟩) ∧ (¬ IsIdent (nameOf (name.map BitVec.toNat)) → parse src = none) := by
  have h1 := table_lex h hs
  have e : (Tok.id (n! "package") :: .id (n! "p") :: .op (n! ";") :: varTokens name l).length + 1 = l.length + 2 + l.length + 12 := by
    simp [varTokens, length_commas]
    omega
  have e2 : ∃ ts, varTokens name l = .id (n! "var") :: .id (nameOf (name.map BitVec.toNat)) :: ts := ⟨_, rfl⟩
  have h2 : pFile (l.length + 2 + l.length + 12) (Tok.id (n! "package") :: .id (n! "p") :: .op (n! ";") :: varTokens name l) =
      P.bind (pDecls (l.length + 2 + l.length + 12) (l.length + 2 + l.length + 12)) (fun ds => P.pure (⟨n! "p", [], ds⟩ : File)) (varTokens name l) := by
    obtain ⟨ts, e2⟩ := e2
    rw [e2]
    exact pFile_open _ package_ident (.inr rfl) ts
  constructor
  · intro hi
    refine parse_some h1 ?_
    rw [e, h2]
    have h3 := pDecls_table hi (l := l) (g := l.length + 2) (k := l.length + 2 + l.length + 11) (rest := []) (ds := []) (r := []) rfl
    rw [List.append_nil] at h3
    exact bind_some h3
  · intro hi
    refine parse_none h1 ?_
    rw [e, h2]
    obtain ⟨ts, e2⟩ := e2
    rw [e2]
    exact bind_none (pDecls_keyword hi _ (l.length + 2 + l.length + 11) ts).1

theorem parse_sum {name : List U8} (h : GoSource.IsIdent name) {l : List U64} {src : List String} (hs : LinesOf src (ascii "package p\n" ++ constDecl name l)) :
    (IsIdent (nameOf (name.map BitVec.toNat)) → l ≠ [] → parse src = some ⟨n! "p", [], [constTree name l]⟩) ∧
    (l = [] ∨ ¬ IsIdent (nameOf (name.map BitVec.toNat)) → parse src = none) := by
  have h1 := sum_lex h hs
  have h4 : ¬ IsIdent (nameOf (name.map BitVec.toNat)) → ∀ ts, parse src = none ∨ lex src ≠ some (.id (n! "package") :: .id (n! "p") :: .op (n! ";") :: .id (n! "const") :: .id (nameOf (name.map BitVec.toNat)) :: ts) := by
    intro hi ts
    by_cases hx : lex src = some (.id (n! "package") :: .id (n! "p") :: .op (n! ";") :: .id (n! "const") :: .id (nameOf (name.map BitVec.toNat)) :: ts)
    · refine .inl (parse_none hx ?_)
      rw [pFile_open _ package_ident (.inl rfl) ts]
      exact bind_none (pDecls_keyword hi _ _ ts).2
    · exact .inr hx
  constructor
  · intro hi hl
    rw [if_neg hl] at h1
    refine parse_some h1 ?_
    have e : (Tok.id (n! "package") :: .id (n! "p") :: .op (n! ";") :: constTokens name l).length + 1 = l.length + 3 + l.length + 6 := by
      have : ∀ ss : List (List Nat), (plusToks ss).length = 2 * ss.length := by
        intro ss
        induction ss with
        | nil => rfl
        | cons s ss ih => simp [plusToks, ih]; omega
      simp [constTokens, this]
      omega
    rw [e]
    have h2 : pFile (l.length + 3 + l.length + 6) (Tok.id (n! "package") :: .id (n! "p") :: .op (n! ";") :: constTokens name l) =
        P.bind (pDecls (l.length + 3 + l.length + 6) (l.length + 3 + l.length + 6)) (fun ds => P.pure (⟨n! "p", [], ds⟩ : File)) (constTokens name l) :=
      pFile_open _ package_ident (.inl rfl) _
    rw [h2]
    have h3 := pDecls_sum hi (l := l) (g := l.length + 3) (k := l.length + 3 + l.length + 5) (rest := []) (ds := []) (r := []) rfl
    rw [List.append_nil] at h3
    exact bind_some h3
  · intro hc
    by_cases hi : IsIdent (nameOf (name.map BitVec.toNat))
    · have hl := hc.resolve_right (not_not.mpr hi)
      rw [if_pos hl] at h1
      refine parse_none h1 ?_
      generalize nameOf (name.map BitVec.toNat) = n at *
      refine (pFile_open 8 package_ident (.inl rfl) _).trans (bind_none ?_)
      rw [pDecls_const]
      exact bind_none (bind_none ((pConst_open _ hi _).trans rfl))
    · by_cases hl : l = []
      · rw [if_pos hl] at h1
        exact (h4 hi _).resolve_right (not_not.mpr h1)
      · rw [if_neg hl] at h1
        exact (h4 hi _).resolve_right (not_not.mpr h1)

end GoLang
