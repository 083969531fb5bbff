import Verif.Lemmas.Generated
import Verif.Lemmas.Words
import Verif.Lemmas.Codegen

/-! # The tokens of functions that return a sum of string literals, or a composite literal of bytes -/
namespace GoLang
open CodegenSpec HexSpec

/-! ## Lines -/

/-- The lines `src`, joined by line ends, are the text `t`. -/
def LinesOf (src : List String) (t : List U8) : Prop :=
  src ≠ [] ∧ (∀ s ∈ src, 10 ∉ bytesOf s) ∧ [10].intercalate (src.map bytesOf) = t.map BitVec.toNat

theorem intercalate_one (x : List Nat) : [10].intercalate [x] = x := by simp [List.intercalate]

theorem intercalate_two (x y : List Nat) (l : List (List Nat)) : [10].intercalate (x :: y :: l) = x ++ 10 :: [10].intercalate (y :: l) := by
  simp [List.intercalate, List.intersperse]

theorem cut_unique : ∀ {a b X Y : List Nat}, 10 ∉ a → 10 ∉ b → (X = [] ∨ ∃ r, X = 10 :: r) → (Y = [] ∨ ∃ r, Y = 10 :: r) → a ++ X = b ++ Y → a = b ∧ X = Y
  | [], [], _, _, _, _, _, _, h => ⟨rfl, h⟩
  | [], c :: b, X, Y, _, hb, hX, _, h => by
    rcases hX with rfl | ⟨r, rfl⟩
    · cases h
    · cases h
      exact absurd List.mem_cons_self hb
  | c :: a, [], X, Y, ha, _, _, hY, h => by
    rcases hY with rfl | ⟨r, rfl⟩
    · cases h
    · cases h
      exact absurd List.mem_cons_self ha
  | c :: a, d :: b, X, Y, ha, hb, hX, hY, h => by
    obtain ⟨rfl, h2⟩ := List.cons.inj h
    obtain ⟨rfl, e⟩ := cut_unique (fun h => ha (List.mem_cons_of_mem _ h)) (fun h => hb (List.mem_cons_of_mem _ h)) hX hY h2
    exact ⟨rfl, e⟩

theorem lines_unique : ∀ {l m : List (List Nat)}, l ≠ [] → m ≠ [] → (∀ x ∈ l, 10 ∉ x) → (∀ x ∈ m, 10 ∉ x) → [10].intercalate l = [10].intercalate m → l = m
  | [], _, h, _, _, _, _ => absurd rfl h
  | _ :: _, [], _, h, _, _, _ => absurd rfl h
  | [x], [y], _, _, _, _, h => by rw [intercalate_one, intercalate_one] at h; rw [h]
  | [x], y :: z :: m, _, _, hl, hm, h => by
    rw [intercalate_one, intercalate_two] at h
    have := cut_unique (X := []) (hl x (by simp)) (hm y (by simp)) (.inl rfl) (.inr ⟨_, rfl⟩) (by simpa using h)
    cases this.2
  | x :: z :: l, [y], _, _, hl, hm, h => by
    rw [intercalate_one, intercalate_two] at h
    have := cut_unique (Y := []) (hl x (by simp)) (hm y (by simp)) (.inr ⟨_, rfl⟩) (.inl rfl) (by simpa using h)
    cases this.2
  | x :: z :: l, y :: w :: m, _, _, hl, hm, h => by
    rw [intercalate_two, intercalate_two] at h
    obtain ⟨rfl, e⟩ := cut_unique (hl x (by simp)) (hm y (by simp)) (.inr ⟨_, rfl⟩) (.inr ⟨_, rfl⟩) h
    rw [lines_unique (by simp) (by simp) (fun x hx => hl x (List.mem_cons_of_mem _ hx)) (fun x hx => hm x (List.mem_cons_of_mem _ hx)) (List.cons.inj e).2]

/-- The tokens of lines given as bytes. -/
inductive LinesTok : List (List Nat) → List Tok → Prop
  | nil : LinesTok [] []
  | cons {l : List Nat} {ls : List (List Nat)} {ts us vs : List Tok} : LineOf l ts → LineEnd ts us → LinesTok ls vs → LinesTok (l :: ls) (us ++ vs)

theorem textOf_lines : ∀ {src : List String} {ts : List Tok}, LinesTok (src.map bytesOf) ts → TextOf src ts
  | [], _, h => by cases h; exact .nil
  | _ :: _, _, h => by
    cases h with
    | cons h1 h2 h3 => exact .cons h1 h2 (textOf_lines h3)

/-! ## Characters -/

/-- The digits of a byte. -/
def hiDigit (b : U8) : Nat := (upperDigit (b.toNat / 16)).toNat
def loDigit (b : U8) : Nat := (upperDigit (b.toNat % 16)).toNat

theorem digits_val : ∀ b : U8, digitVal (hiDigit b) = b.toNat / 16 ∧ digitVal (loDigit b) = b.toNat % 16 := by decide +kernel

theorem hi_digit (b : U8) : HexDigit (hiDigit b) (b.toNat / 16) := by
  have := (digits_val b).1
  rw [← this]
  apply hexDigit_of
  have := b.isLt
  omega

theorem lo_digit (b : U8) : HexDigit (loDigit b) (b.toNat % 16) := by
  have := (digits_val b).2
  rw [← this]
  apply hexDigit_of
  omega

theorem digits_plain : ∀ b : U8, hiDigit b ≠ 10 ∧ loDigit b ≠ 10 := by decide +kernel

theorem encode_one (b : U8) : (encode [b]).map BitVec.toNat = [hiDigit b, loDigit b] := rfl

/-! ## String literals -/

/-- The characters of a string literal. -/
def escapes (s : List U8) : List Nat := s.flatMap fun b => [92, 120, hiDigit b, loDigit b]

theorem escapes_lits : ∀ s : List U8, CharLits 34 (escapes s) (s.map BitVec.toNat)
  | [] => .nil
  | b :: s => by
    have := CharLits.cons (CharLit.hex (q := 34) (hi_digit b) (lo_digit b)) (escapes_lits s)
    rw [show b.toNat / 16 * 16 + b.toNat % 16 = b.toNat by omega] at this
    exact this

theorem quoted_map (s : List U8) : (quoted s).map BitVec.toNat = 34 :: escapes s ++ [34] := by
  unfold quoted escapes
  rw [List.map_append, List.map_append, List.map_flatMap]
  congr 1

/-- The text of a sum. -/
def sumText : List (List U8) → List Nat
  | [] => []
  | s :: l => 43 :: 34 :: escapes s ++ [34] ++ sumText l

theorem op_line {c d : Nat} {l : List Nat} {ts : List Tok} (hc : [c] ∈ operators) (hd : ∀ v ∈ operators, v.take 2 ≠ [c, d]) (h1 : c ≠ 47)
    (h : LineOf (d :: l) ts) : LineOf (c :: d :: l) (.op (nameOf [c]) :: ts) := by
  refine .op (w := [c]) hc ?_ ?_ ?_ h
  · intro v hv hp
    match v with
    | [] => simp
    | [_] => simp
    | a :: b :: v =>
      obtain ⟨r, hr⟩ := hp
      simp only [List.cons_append, List.nil_append, List.cons.injEq] at hr
      exact absurd (by simp [hr.1, hr.2.1]) (hd _ hv)
  all_goals
    rintro ⟨r, hr⟩
    simp at hr
    exact h1 hr.1.symm

theorem op_end {c : Nat} (hc : [c] ∈ operators) (h1 : c ≠ 47) : LineOf [c] [.op (nameOf [c])] := by
  refine .op (w := [c]) (l := []) hc ?_ ?_ ?_ .nil
  · intro v _ hp
    exact hp.length_le
  all_goals
    rintro ⟨r, hr⟩
    simp at hr

theorem sum_line : ∀ ss : List (List U8), LineOf (sumText ss) (plusToks (ss.map fun s => s.map BitVec.toNat))
  | [] => .nil
  | s :: ss => by
    have h1 : LineOf (34 :: escapes s ++ [34] ++ sumText ss) (.str (s.map BitVec.toNat) :: plusToks (ss.map fun s => s.map BitVec.toNat)) :=
      .quoted (.str (escapes_lits s)) (sum_line ss)
    exact op_line (c := 43) (d := 34) (by decide) (by decide) (by decide) h1

/-! ## Composite literals -/

/-- One section of a composite literal. -/
def pieceText : List U8 → List Nat
  | [] => []
  | [b] => [48, 120, hiDigit b, loDigit b]
  | b :: c :: s => 48 :: 120 :: hiDigit b :: loDigit b :: 44 :: 32 :: pieceText (c :: s)

def pieceToks : List U8 → List Tok
  | [] => []
  | [b] => [.int b.toNat]
  | b :: c :: s => .int b.toNat :: .op (n! ",") :: pieceToks (c :: s)

theorem byte_word (b : U8) : Word [48, 120, hiDigit b, loDigit b] (.int b.toNat) := by
  refine .int (.hex (by simp) (.cons (hi_digit b) (by have := b.isLt; omega) (.cons (lo_digit b) (by omega) ?_)))
  rw [show (0 * 16 + b.toNat / 16) * 16 + b.toNat % 16 = b.toNat by omega]
  exact .nil

theorem piece_line : ∀ (s : List U8) {c : Nat} {l : List Nat} {ts : List Tok}, (c = 44 ∨ c = 125) → LineOf (c :: l) ts →
    LineOf (pieceText s ++ c :: l) (pieceToks s ++ ts)
  | [], _, _, _, _, h => h
  | [b], c, l, ts, hc, h => .word (byte_word b) (by
      rintro d r e
      obtain ⟨rfl, -⟩ := List.cons.inj e
      simp only [Letter, Decimal]
      omega) h
  | b :: d :: s, c, l, ts, hc, h => by
    have h1 := piece_line (d :: s) hc h
    have h2 : LineOf (44 :: 32 :: (pieceText (d :: s) ++ c :: l)) (.op (n! ",") :: (pieceToks (d :: s) ++ ts)) :=
      op_line (c := 44) (d := 32) (by decide) (by decide) (by decide) (.blank (.inl rfl) h1)
    exact .word (w := [48, 120, hiDigit b, loDigit b]) (byte_word b) (by
      rintro d r e
      obtain ⟨rfl, -⟩ := List.cons.inj e
      simp [Letter, Decimal]) h2

theorem piece_nums : ∀ (s : List U8), s ≠ [] → ∀ l : List Nat, l ≠ [] → eltToks (s.map BitVec.toNat ++ l) = pieceToks s ++ .op (n! ",") :: eltToks l
  | [], h, _, _ => absurd rfl h
  | [b], _, [], h => absurd rfl h
  | [b], _, x :: l, _ => rfl
  | b :: c :: s, _, l, h => by
    have := piece_nums (c :: s) (by simp) l h
    show Tok.int b.toNat :: .op (n! ",") :: eltToks ((c :: s).map BitVec.toNat ++ l) = _
    rw [this]
    rfl

theorem piece_last : ∀ (s : List U8), eltToks (s.map BitVec.toNat) = pieceToks s ++ [.op (n! "}")]
  | [] => rfl
  | [b] => rfl
  | b :: c :: s => by
    have := piece_last (c :: s)
    show Tok.int b.toNat :: .op (n! ",") :: eltToks ((c :: s).map BitVec.toNat) = _
    rw [this]
    rfl

/-- The lines of a composite literal, the first after `pre`. -/
def bodyLines (pre : List Nat) : List (List U8) → List (List Nat)
  | [] => [pre ++ [125]]
  | [s] => [pre ++ (pieceText s ++ [125])]
  | s :: t :: ss => (pre ++ (pieceText s ++ [44, 32])) :: bodyLines [] (t :: ss)

theorem lineEnd_open (ts : List Tok) {t : Tok} (h : ¬ EndsStmt t) : LineEnd (ts ++ [t]) (ts ++ [t]) := .open h

theorem brace_ends : EndsStmt (.op (n! "}")) := by simp [EndsStmt]

theorem brace_line : LineOf [125] [.op (n! "}")] := op_end (c := 125) (by decide) (by decide)

theorem comma_open : ¬ EndsStmt (.op (n! ",")) := by simp [EndsStmt, Name]

/-- What stands before the first element: for any tokens after it, the line has the tokens of both. -/
def Before (pre : List Nat) (us : List Tok) : Prop :=
  ∀ c l ts, (c = 48 ∨ c = 125) → LineOf (c :: l) ts → LineOf (pre ++ c :: l) (us ++ ts)

theorem before_nil : Before [] [] := fun _ _ _ _ h => h

theorem piece_first : ∀ (s : List U8), s ≠ [] → ∀ l, ∃ r, pieceText s ++ l = 48 :: r
  | [], h, _ => absurd rfl h
  | [_], _, _ => ⟨_, rfl⟩
  | _ :: _ :: _, _, _ => ⟨_, rfl⟩

theorem body_lines : ∀ (ss : List (List U8)), (∀ s ∈ ss, s ≠ []) → ∀ (pre : List Nat) (us : List Tok), Before pre us →
    ∀ {rest : List (List Nat)} {vs : List Tok}, LinesTok rest vs →
    LinesTok (bodyLines pre ss ++ rest) (us ++ (eltToks (ss.flatten.map BitVec.toNat) ++ .op (n! ";") :: vs))
  | [], _, pre, us, hp, rest, vs, hr => by
    have h := hp 125 [] _ (.inr rfl) brace_line
    have := LinesTok.cons h (.semi brace_ends) hr
    simpa [bodyLines, eltToks] using this
  | [s], hs, pre, us, hp, rest, vs, hr => by
    have h1 := piece_line s (c := 125) (.inr rfl) brace_line
    have h : LineOf (pre ++ (pieceText s ++ [125])) (us ++ (pieceToks s ++ [.op (n! "}")])) := by
      obtain ⟨r, e⟩ := piece_first s (hs s (by simp)) [125]
      rw [e] at h1 ⊢
      exact hp 48 r _ (.inl rfl) h1
    have h : LineOf (pre ++ (pieceText s ++ [125])) ((us ++ pieceToks s) ++ [.op (n! "}")]) := by rw [List.append_assoc]; exact h
    have := LinesTok.cons h (.semi brace_ends) hr
    simpa [bodyLines, piece_last] using this
  | s :: t :: ss, hs, pre, us, hp, rest, vs, hr => by
    have ih := body_lines (t :: ss) (fun x hx => hs x (List.mem_cons_of_mem _ hx)) [] [] before_nil hr
    have h0 : LineOf [44, 32] [.op (n! ",")] := op_line (c := 44) (d := 32) (by decide) (by decide) (by decide) (.blank (.inl rfl) .nil)
    have h1 := piece_line s (c := 44) (.inl rfl) h0
    have h : LineOf (pre ++ (pieceText s ++ [44, 32])) (us ++ (pieceToks s ++ [.op (n! ",")])) := by
      obtain ⟨r, e⟩ := piece_first s (hs s (by simp)) [44, 32]
      rw [e] at h1 ⊢
      exact hp 48 r _ (.inl rfl) h1
    have h : LineOf (pre ++ (pieceText s ++ [44, 32])) ((us ++ pieceToks s) ++ [.op (n! ",")]) := by rw [List.append_assoc]; exact h
    have hne : (t :: ss).flatten.map BitVec.toNat ≠ [] := by
      have := hs t (by simp)
      simp [this]
    have := LinesTok.cons h (.open comma_open) ih
    rw [List.flatten_cons, List.map_append, piece_nums s (hs s (by simp)) _ hne]
    simpa [bodyLines] using this

/-! ## Whole texts -/

/-- The text of a package with one function, which returns the value of an expression. -/
def returning (ty : String) (e : List U8) : List U8 := ascii "package p\nfunc F() " ++ ascii ty ++ ascii " {\nreturn " ++ e ++ ascii "\n}\n"

theorem sections_spec {n : Nat} (hn : 0 < n) : ∀ (k : Nat) (l : List U8), l.length ≤ k →
    (∀ s ∈ sections n l, s ≠ []) ∧ (sections n l).flatten = l ∧ (l ≠ [] → sections n l ≠ [])
  | 0, l, h => by
    have : l = [] := List.length_eq_zero_iff.mp (by omega)
    subst this
    rw [Codegen.sections_nil hn]
    simp
  | k + 1, l, h => by
    by_cases hl : l = []
    · subst hl
      rw [Codegen.sections_nil hn]
      simp
    · have hp : 0 < l.length := List.length_pos_iff.mpr hl
      obtain ⟨h1, h2, -⟩ := sections_spec hn k (l.drop n) (by rw [List.length_drop]; omega)
      rw [Codegen.sections_cons hn l hl]
      refine ⟨?_, ?_, fun _ => by simp⟩
      · intro s hs
        rcases List.mem_cons.mp hs with rfl | hs
        · intro e
          have := congrArg List.length e
          rw [List.length_take, List.length_nil] at this
          omega
        · exact h1 s hs
      · rw [List.flatten_cons, h2, List.take_append_drop]

theorem sum_map : ∀ ss : List (List U8), (ss.map quoted |>.flatMap fun y => ascii "+" ++ y).map BitVec.toNat = sumText ss
  | [] => rfl
  | s :: ss => by
    have := sum_map ss
    simp only [List.map_cons, List.flatMap_cons, List.map_append, this, quoted_map, sumText]
    simp [ascii]

theorem stringExpr_map {n : Nat} (hn : 0 < n) (l : List U8) :
    ∃ s ss, (stringExpr n l).map BitVec.toNat = 34 :: escapes s ++ [34] ++ sumText ss ∧ s ++ ss.flatten = l := by
  unfold stringExpr
  split
  · next h => exact ⟨[], [], rfl, by rw [h]; rfl⟩
  · next h =>
    obtain ⟨-, h2, h3⟩ := sections_spec hn l.length l (Nat.le_refl _)
    cases e : sections n l with
    | nil => exact absurd e (h3 h)
    | cons s ss =>
      refine ⟨s, ss, ?_, by rw [← h2, e]; rfl⟩
      rw [List.map_cons, Codegen.intercalate_cons, List.map_append, sum_map, quoted_map]

theorem intercalate_append (B : List (List Nat)) (hB : B ≠ []) : ∀ A : List (List Nat), A ≠ [] → [10].intercalate (A ++ B) = [10].intercalate A ++ 10 :: [10].intercalate B
  | [], h => absurd rfl h
  | [x], _ => by
    obtain ⟨y, l, rfl⟩ := List.exists_cons_of_ne_nil hB
    rw [List.singleton_append, intercalate_two, intercalate_one]
  | x :: y :: A, _ => by
    have ih := intercalate_append B hB (y :: A) (by simp)
    rw [List.cons_append, List.cons_append, intercalate_two, intercalate_two, ← List.cons_append, ih]
    simp

/-- One section, as `compositeBody` writes it. -/
def section_ (s : List U8) : List U8 := (ascii ", ").intercalate (s.map fun b => ascii "0x" ++ encode [b])

theorem section_map : ∀ s : List U8, (section_ s).map BitVec.toNat = pieceText s
  | [] => rfl
  | [b] => by simp [section_, List.intercalate, pieceText, encode_one, ascii]
  | b :: c :: s => by
    have ih := section_map (c :: s)
    have : section_ (b :: c :: s) = (ascii "0x" ++ encode [b]) ++ (ascii ", " ++ section_ (c :: s)) := by
      simp [section_, List.intercalate, List.intersperse]
    rw [this, List.map_append, List.map_append, List.map_append, ih, encode_one]
    rfl

theorem body_text : ∀ (ss : List (List U8)) (pre : List Nat),
    [10].intercalate (bodyLines pre ss) = pre ++ ((ascii ", \n").intercalate (ss.map section_)).map BitVec.toNat ++ [125]
  | [], pre => by simp [bodyLines, List.intercalate]
  | [s], pre => by simp [bodyLines, List.intercalate, section_map]
  | s :: t :: ss, pre => by
    have ih := body_text (t :: ss) []
    have h : (ascii ", \n").intercalate ((s :: t :: ss).map section_) = section_ s ++ (ascii ", \n" ++ (ascii ", \n").intercalate ((t :: ss).map section_)) := by
      simp [List.intercalate, List.intersperse]
    obtain ⟨x, l, e⟩ : ∃ x l, bodyLines [] (t :: ss) = x :: l := by
      cases ss <;> exact ⟨_, _, rfl⟩
    rw [h, bodyLines, e, intercalate_two, ← e, ih, List.map_append, List.map_append, section_map]
    simp [ascii]

theorem piece_plain : ∀ s : List U8, 10 ∉ pieceText s
  | [] => by simp [pieceText]
  | [b] => by
    have := digits_plain b
    simp [pieceText]; omega
  | b :: c :: s => by
    have := digits_plain b
    have := piece_plain (c :: s)
    simp [pieceText, this]; omega

theorem body_plain : ∀ (ss : List (List U8)) (pre : List Nat), 10 ∉ pre → ∀ x ∈ bodyLines pre ss, 10 ∉ x
  | [], pre, h, x, hx => by
    simp only [bodyLines, List.mem_singleton] at hx
    subst hx
    simp [h]
  | [s], pre, h, x, hx => by
    simp only [bodyLines, List.mem_singleton] at hx
    subst hx
    simp [h, piece_plain]
  | s :: t :: ss, pre, h, x, hx => by
    simp only [bodyLines] at hx
    rcases List.mem_cons.mp hx with rfl | hx
    · simp [h, piece_plain]
    · exact body_plain (t :: ss) [] (by simp) x hx

theorem escapes_plain (s : List U8) : 10 ∉ escapes s := by
  simp only [escapes, List.mem_flatMap, not_exists, not_and]
  intro b _
  have := digits_plain b
  simp; omega

theorem sum_plain : ∀ ss : List (List U8), 10 ∉ sumText ss
  | [] => by simp [sumText]
  | s :: ss => by simp [sumText, escapes_plain, sum_plain ss]

theorem line_of {l : List Nat} {ts : List Tok} (h : lexLine (l.length + 1) l = some ts) (hl : l.all (Nat.blt · 256) = true) : LineOf l ts :=
  lexLine_sound (fun x hx => by simpa using List.all_eq_true.mp hl x hx) h

theorem tail_lines : LinesTok [[125], []] [.op (n! "}"), .op (n! ";")] :=
  .cons (ts := [.op (n! "}")]) (us := [.op (n! "}"), .op (n! ";")]) brace_line (.semi (ts := []) brace_ends) (.cons .nil .nil .nil)

theorem name_ends {n : Name} (h : semiAfter (.id n) = true) : EndsStmt (.id n) := semiAfter_iff.mp h

/-- The first line and the line that begins the function. -/
theorem head_lines {ty : List Nat} {us : List Tok} {rest : List (List Nat)} {vs : List Tok}
    (h : LineOf (bytesOf "func F() " ++ ty ++ bytesOf " {") ([.id (n! "func"), .id (n! "F"), .op (n! "("), .op (n! ")")] ++ us ++ [.op (n! "{")]))
    (hr : LinesTok rest vs) : LinesTok (bytesOf "package p" :: (bytesOf "func F() " ++ ty ++ bytesOf " {") :: rest)
      ([.id (n! "package"), .id (n! "p"), .op (n! ";"), .id (n! "func"), .id (n! "F"), .op (n! "("), .op (n! ")")] ++ us ++ [.op (n! "{")] ++ vs) := by
  have h1 : LineOf (bytesOf "package p") [.id (n! "package"), .id (n! "p")] := line_of rfl rfl
  have h2 := LinesTok.cons h (.open (by simp [EndsStmt, Name])) hr
  have := LinesTok.cons h1 (.semi (ts := [.id (n! "package")]) (name_ends (by decide))) h2
  simpa using this

theorem return_line {l : List Nat} {ts : List Tok} (h : LineOf l ts) : LineOf (bytesOf "return " ++ l) (.id (n! "return") :: ts) := by
  refine .word (w := [114, 101, 116, 117, 114, 110]) (l := 32 :: l) (.id ?_ ?_) ?_ (.blank (.inl rfl) h)
  · simp [Letter]
  · simp [Letter]
  · rintro d r e
    obtain ⟨rfl, -⟩ := List.cons.inj e
    simp [Letter, Decimal]

theorem lines_eq {src : List String} {t : List U8} {l : List (List Nat)} (h : LinesOf src t) (hl : l ≠ []) (hp : ∀ x ∈ l, 10 ∉ x)
    (e : [10].intercalate l = t.map BitVec.toNat) : src.map bytesOf = l := by
  obtain ⟨h1, h2, h3⟩ := h
  refine lines_unique (by simpa using h1) hl ?_ hp (h3.trans e.symm)
  intro x hx
  obtain ⟨s, hs, rfl⟩ := List.mem_map.mp hx
  exact h2 s hs

theorem plusToks_length : ∀ l : List (List Nat), (plusToks l).length = 2 * l.length
  | [] => rfl
  | _ :: l => by
    have := plusToks_length l
    simp only [plusToks, List.length_cons, this]
    omega

theorem eltToks_length : ∀ l : List Nat, l.length < (eltToks l).length
  | [] => by simp [eltToks]
  | [_] => by simp [eltToks]
  | _ :: b :: l => by
    have := eltToks_length (b :: l)
    simp only [eltToks, List.length_cons] at this ⊢
    omega

theorem last_str : ∀ (l : List (List Nat)) (s : List Nat), ∃ w r, Tok.str s :: plusToks l = w ++ [.str r]
  | [], s => ⟨[], s, rfl⟩
  | t :: l, s => by
    obtain ⟨w, r, e⟩ := last_str l t
    exact ⟨.str s :: .op (n! "+") :: w, r, by rw [plusToks, e]; rfl⟩

/-- A function that returns a sum of string literals, parsed. -/
theorem parse_string {src : List String} {e : List U8} {s : List U8} {ss : List (List U8)} (he : e.map BitVec.toNat = 34 :: escapes s ++ [34] ++ sumText ss)
    (h : LinesOf src (returning "string" e)) :
    parse src = some (oneReturn (.name (n! "string")) (strSum (.str (s.map BitVec.toNat)) (ss.map fun s => s.map BitVec.toNat))) := by
  have e1 := lines_eq h (l := [bytesOf "package p", bytesOf "func F() " ++ bytesOf "string" ++ bytesOf " {", bytesOf "return " ++ e.map BitVec.toNat, [125], []])
    (by simp) (by
      intro x hx
      simp only [List.mem_cons, List.not_mem_nil, or_false] at hx
      rcases hx with rfl | rfl | rfl | rfl | rfl
      · decide
      · decide
      · rw [he, List.mem_append, not_or]
        exact ⟨by decide, by simp [escapes_plain, sum_plain]⟩
      · decide
      · decide) (by
      simp only [intercalate_two, intercalate_one, returning, List.map_append, List.append_assoc]
      rfl)
  have l1 : LineOf (34 :: escapes s ++ [34] ++ sumText ss) (.str (s.map BitVec.toNat) :: plusToks (ss.map fun s => s.map BitVec.toNat)) :=
    .quoted (.str (escapes_lits s)) (sum_line ss)
  have l2 := return_line l1
  rw [← he] at l2
  obtain ⟨w, r, e2⟩ : ∃ w r, Tok.str (s.map BitVec.toNat) :: plusToks (ss.map fun s => s.map BitVec.toNat) = w ++ [.str r] := last_str _ _
  have l3 : LinesTok (bytesOf "package p" :: (bytesOf "func F() " ++ bytesOf "string" ++ bytesOf " {") :: [bytesOf "return " ++ e.map BitVec.toNat, [125], []]) _ :=
    head_lines (us := [.id (n! "string")]) (line_of rfl rfl) (.cons l2 (us := .id (n! "return") :: (w ++ [.str r]) ++ [.op (n! ";")]) (by
      rw [e2]
      have := LineEnd.semi (ts := .id (n! "return") :: w) (t := .str r) trivial
      simpa using this) tail_lines)
  have l4 := lex_complete (textOf_lines (e1 ▸ l3))
  have l5 : ∀ k, pFile (k + ss.length + 14) (headToks [.id (n! "string")] ++ .str (s.map BitVec.toNat) :: (plusToks (ss.map fun s => s.map BitVec.toNat) ++ tailToks)) =
      some (oneReturn (.name (n! "string")) (strSum (.str (s.map BitVec.toNat)) (ss.map fun s => s.map BitVec.toNat)), []) := by
    intro k
    refine pFile_return (k + ss.length) _ _ _ _ _ (.inl ⟨_, rfl⟩) (.inl ⟨rfl, rfl⟩) ?_
    have := pExpr_sum (s.map BitVec.toNat) (ss.map fun s => s.map BitVec.toNat) (k + 4) [.op (n! "}"), .op (n! ";")]
    rw [List.length_map, show k + 4 + ss.length + 6 = k + ss.length + 10 by omega] at this
    exact this
  have e3 : [.id (n! "package"), .id (n! "p"), .op (n! ";"), .id (n! "func"), .id (n! "F"), .op (n! "("), .op (n! ")")] ++ [.id (n! "string")] ++ [.op (n! "{")] ++
      (.id (n! "return") :: (w ++ [.str r]) ++ [.op (n! ";")] ++ [.op (n! "}"), .op (n! ";")]) =
      headToks [.id (n! "string")] ++ .str (s.map BitVec.toNat) :: (plusToks (ss.map fun s => s.map BitVec.toNat) ++ tailToks) := by
    rw [← e2]
    simp [headToks, tailToks]
  rw [e3] at l4
  have e4 : (headToks [.id (n! "string")] ++ .str (s.map BitVec.toNat) :: (plusToks (ss.map fun s => s.map BitVec.toNat) ++ tailToks)).length + 1 =
      (ss.length + 1) + ss.length + 14 := by
    simp [headToks, tailToks, plusToks_length]
    omega
  unfold parse
  simp only [l4, e4, l5]

theorem eltToks_last : ∀ l : List Nat, ∃ w, eltToks l = w ++ [.op (n! "}")]
  | [] => ⟨[], rfl⟩
  | [a] => ⟨[.int a], rfl⟩
  | a :: b :: l => by
    obtain ⟨w, e⟩ := eltToks_last (b :: l)
    exact ⟨.int a :: .op (n! ",") :: w, by rw [eltToks, e]; rfl⟩

theorem comp_before : Before (bytesOf "return []byte{") [.id (n! "return"), .op (n! "["), .op (n! "]"), .id (n! "byte"), .op (n! "{")] := by
  intro c l ts hc h
  have h1 : LineOf (123 :: c :: l) (.op (n! "{") :: ts) := op_line (c := 123) (by decide) (by rcases hc with rfl | rfl <;> decide) (by decide) h
  have h2 : LineOf (98 :: 121 :: 116 :: 101 :: 123 :: c :: l) (.id (n! "byte") :: .op (n! "{") :: ts) :=
    .word (w := [98, 121, 116, 101]) (.id (by simp [Letter]) (by simp [Letter])) (by
      rintro d r e
      obtain ⟨rfl, -⟩ := List.cons.inj e
      simp [Letter, Decimal]) h1
  have h3 := op_line (c := 93) (by decide) (by decide) (by decide) h2
  have h4 := op_line (c := 91) (by decide) (by decide) (by decide) h3
  exact return_line h4

/-- A function that returns a composite literal of bytes, parsed. -/
theorem parse_bytes {src : List String} {n : Nat} (hn : 0 < n) {b : List U8} (h : LinesOf src (returning "[]byte" (ascii "[]byte" ++ compositeBody n b))) :
    parse src = some (oneReturn (.slice (.name (n! "byte"))) (.comp (.slice (.name (n! "byte"))) (intElts (b.map BitVec.toNat)))) := by
  obtain ⟨s1, s2, -⟩ := sections_spec hn b.length b (Nat.le_refl _)
  have hne : bodyLines (bytesOf "return []byte{") (sections n b) ≠ [] := by
    rcases sections n b with _ | ⟨_, _ | ⟨_, _⟩⟩ <;> simp [bodyLines]
  have e1 := lines_eq h (l := [bytesOf "package p", bytesOf "func F() " ++ bytesOf "[]byte" ++ bytesOf " {"] ++ (bodyLines (bytesOf "return []byte{") (sections n b) ++ [[125], []]))
    (by simp) (by
      intro x hx
      simp only [List.mem_append, List.mem_cons, List.not_mem_nil, or_false] at hx
      rcases hx with (rfl | rfl) | hx | rfl | rfl
      · decide
      · decide
      · exact body_plain _ _ (by decide) x hx
      · decide
      · decide) (by
      rw [intercalate_append _ (by simp) _ (by simp), intercalate_append _ (by simp) _ hne, body_text]
      simp only [intercalate_two, intercalate_one, returning, compositeBody, List.map_append, List.append_assoc]
      rfl)
  rw [List.cons_append, List.cons_append, List.nil_append] at e1
  have l3 := head_lines (ty := bytesOf "[]byte") (us := [.op (n! "["), .op (n! "]"), .id (n! "byte")]) (line_of rfl rfl) (body_lines _ s1 _ _ comp_before tail_lines)
  have l4 := lex_complete (textOf_lines (e1 ▸ l3))
  rw [s2] at l4
  have l5 : ∀ k, pFile (k + b.length + 14) (headToks [.op (n! "["), .op (n! "]"), .id (n! "byte")] ++
      .op (n! "[") :: ([.op (n! "]"), .id (n! "byte"), .op (n! "{")] ++ eltToks (b.map BitVec.toNat) ++ tailToks)) =
      some (oneReturn (.slice (.name (n! "byte"))) (.comp (.slice (.name (n! "byte"))) (intElts (b.map BitVec.toNat))), []) := by
    intro k
    refine pFile_return (k + b.length) _ _ _ _ _ (.inr rfl) (.inr ⟨rfl, rfl⟩) ?_
    have := pExpr_comp (b.map BitVec.toNat) (k + 2) [.op (n! "}"), .op (n! ";")]
    rw [List.length_map, show k + 2 + b.length + 8 = k + b.length + 10 by omega] at this
    exact this
  have e3 : [.id (n! "package"), .id (n! "p"), .op (n! ";"), .id (n! "func"), .id (n! "F"), .op (n! "("), .op (n! ")")] ++
      [.op (n! "["), .op (n! "]"), .id (n! "byte")] ++ [.op (n! "{")] ++
      ([.id (n! "return"), .op (n! "["), .op (n! "]"), .id (n! "byte"), .op (n! "{")] ++ (eltToks (b.map BitVec.toNat) ++ .op (n! ";") :: [.op (n! "}"), .op (n! ";")])) =
      headToks [.op (n! "["), .op (n! "]"), .id (n! "byte")] ++
      .op (n! "[") :: ([.op (n! "]"), .id (n! "byte"), .op (n! "{")] ++ eltToks (b.map BitVec.toNat) ++ tailToks) := by
    simp [headToks, tailToks]
  rw [e3] at l4
  obtain ⟨k, e4⟩ : ∃ k, (headToks [.op (n! "["), .op (n! "]"), .id (n! "byte")] ++
      Tok.op (n! "[") :: ([Tok.op (n! "]"), .id (n! "byte"), .op (n! "{")] ++ eltToks (b.map BitVec.toNat) ++ tailToks)).length + 1 = k + b.length + 14 := by
    have := eltToks_length (b.map BitVec.toNat)
    rw [List.length_map] at this
    refine ⟨(eltToks (b.map BitVec.toNat)).length + 6 - b.length, ?_⟩
    simp [headToks, tailToks]
    omega
  unfold parse
  simp only [l4, e4, l5]

end GoLang
