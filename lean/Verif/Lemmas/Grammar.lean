import Verif.Lang.Grammar
import Verif.Lang.Parser

/-!
# The parser finds only trees of the grammar

For every function of the parser: what it reads derives what it returns. By induction on the bound of the depth.
-/
namespace GoLang

/-! ## Taking parsers apart -/

theorem bind_inv {α β : Type} {x : P α} {g : α → P β} {l : Toks} {r : β × Toks} (h : (x >>= g) l = some r) :
    ∃ a m, x l = some (a, m) ∧ g a m = some r := by
  change P.bind x g l = some r at h
  unfold P.bind at h
  split at h
  · exact ⟨_, _, ‹_›, h⟩
  · exact absurd h (by simp)

theorem pure_inv {α : Type} {a b : α} {l m : Toks} (h : (pure a : P α) l = some (b, m)) : a = b ∧ l = m := by
  change some (a, l) = some (b, m) at h
  simpa using h

theorem fail_inv {α : Type} {l : Toks} {r : α × Toks} (h : (fail : P α) l = some r) : False := by
  simp [fail] at h

theorem next_inv {l : Toks} {t : Tok} {m : Toks} (h : next l = some (t, m)) : l = t :: m := by
  unfold next at h
  split at h
  · simp at h
    rw [h.1, h.2]
  · exact absurd h (by simp)

theorem peek_inv {l : Toks} {t : Tok} {m : Toks} (h : peek l = some (t, m)) : m = l ∧ ∃ k, l = t :: k := by
  unfold peek at h
  split at h
  · simp at h
    exact ⟨h.2.symm, _, by rw [h.1]⟩
  · exact absurd h (by simp)

theorem isOp_inv {n : Name} {l : Toks} {b : Bool} {m : Toks} (h : isOp n l = some (b, m)) :
    m = l ∧ ((b = true ∧ ∃ k, l = .op n :: k) ∨ (b = false ∧ ∀ k, l ≠ .op n :: k)) := by
  unfold isOp at h
  split at h
  · rename_i o k
    simp at h
    refine ⟨h.2.symm, ?_⟩
    cases b
    · refine .inr ⟨rfl, fun j e => ?_⟩
      injection e with e _
      injection e with e
      subst e
      simp [Nat.beq_refl] at h
    · exact .inl ⟨rfl, k, by rw [Nat.eq_of_beq_eq_true h.1]⟩
  · rename_i hn
    simp at h
    exact ⟨h.2.symm, .inr ⟨h.1, fun k e => hn _ _ e⟩⟩

theorem isKw_inv {n : Name} {l : Toks} {b : Bool} {m : Toks} (h : isKw n l = some (b, m)) :
    m = l ∧ ((b = true ∧ ∃ k, l = .id n :: k) ∨ (b = false ∧ ∀ k, l ≠ .id n :: k)) := by
  unfold isKw at h
  split at h
  · rename_i o k
    simp at h
    refine ⟨h.2.symm, ?_⟩
    cases b
    · refine .inr ⟨rfl, fun j e => ?_⟩
      injection e with e _
      injection e with e
      subst e
      simp [Nat.beq_refl] at h
    · exact .inl ⟨rfl, k, by rw [Nat.eq_of_beq_eq_true h.1]⟩
  · rename_i hn
    simp at h
    exact ⟨h.2.symm, .inr ⟨h.1, fun k e => hn _ _ e⟩⟩

theorem isOp_then {β : Type} {n : Name} {g : Bool → P β} {l : Toks} {r : β × Toks} (h : (isOp n >>= g) l = some r) :
    (g true l = some r ∧ ∃ k, l = .op n :: k) ∨ (g false l = some r ∧ ∀ k, l ≠ .op n :: k) := by
  obtain ⟨b, m, h1, h2⟩ := bind_inv h
  obtain ⟨rfl, ⟨rfl, e⟩ | ⟨rfl, e⟩⟩ := isOp_inv h1
  · exact .inl ⟨h2, e⟩
  · exact .inr ⟨h2, e⟩

theorem isKw_then {β : Type} {n : Name} {g : Bool → P β} {l : Toks} {r : β × Toks} (h : (isKw n >>= g) l = some r) :
    (g true l = some r ∧ ∃ k, l = .id n :: k) ∨ (g false l = some r ∧ ∀ k, l ≠ .id n :: k) := by
  obtain ⟨b, m, h1, h2⟩ := bind_inv h
  obtain ⟨rfl, ⟨rfl, e⟩ | ⟨rfl, e⟩⟩ := isKw_inv h1
  · exact .inl ⟨h2, e⟩
  · exact .inr ⟨h2, e⟩

theorem accept_inv {n : Name} {l : Toks} {b : Bool} {m : Toks} (h : accept n l = some (b, m)) :
    (b = true ∧ l = .op n :: m) ∨ (b = false ∧ m = l ∧ ∀ k, l ≠ .op n :: k) := by
  unfold accept at h
  obtain ⟨h, k, rfl⟩ | ⟨h, e⟩ := isOp_then h
  · obtain ⟨t, m', h1, h2⟩ := bind_inv h
    have e := next_inv h1
    obtain ⟨rfl, rfl⟩ := pure_inv h2
    injection e with e1 e2
    exact .inl ⟨rfl, by rw [e2]⟩
  · obtain ⟨rfl, rfl⟩ := pure_inv h
    exact .inr ⟨rfl, rfl, e⟩

theorem acceptKw_inv {n : Name} {l : Toks} {b : Bool} {m : Toks} (h : acceptKw n l = some (b, m)) :
    (b = true ∧ l = .id n :: m) ∨ (b = false ∧ m = l ∧ ∀ k, l ≠ .id n :: k) := by
  unfold acceptKw at h
  obtain ⟨h, k, rfl⟩ | ⟨h, e⟩ := isKw_then h
  · obtain ⟨t, m', h1, h2⟩ := bind_inv h
    have e := next_inv h1
    obtain ⟨rfl, rfl⟩ := pure_inv h2
    injection e with e1 e2
    exact .inl ⟨rfl, by rw [e2]⟩
  · obtain ⟨rfl, rfl⟩ := pure_inv h
    exact .inr ⟨rfl, rfl, e⟩

theorem accept_then {β : Type} {n : Name} {p q : P β} {l : Toks} {r : β × Toks}
    (h : (accept n >>= fun b => if b = true then p else q) l = some r) :
    (∃ k, l = .op n :: k ∧ p k = some r) ∨ ((∀ k, l ≠ .op n :: k) ∧ q l = some r) := by
  obtain ⟨b, m, h1, h2⟩ := bind_inv h
  obtain ⟨rfl, e⟩ | ⟨rfl, rfl, e⟩ := accept_inv h1
  · exact .inl ⟨m, e, h2⟩
  · exact .inr ⟨e, h2⟩

theorem acceptKw_then {β : Type} {n : Name} {p q : P β} {l : Toks} {r : β × Toks}
    (h : (acceptKw n >>= fun b => if b = true then p else q) l = some r) :
    (∃ k, l = .id n :: k ∧ p k = some r) ∨ ((∀ k, l ≠ .id n :: k) ∧ q l = some r) := by
  obtain ⟨b, m, h1, h2⟩ := bind_inv h
  obtain ⟨rfl, e⟩ | ⟨rfl, rfl, e⟩ := acceptKw_inv h1
  · exact .inl ⟨m, e, h2⟩
  · exact .inr ⟨e, h2⟩

theorem expect_inv {n : Name} {l : Toks} {u : Unit} {m : Toks} (h : expect n l = some (u, m)) : l = .op n :: m := by
  unfold expect at h
  obtain ⟨t, k, h1, h2⟩ := bind_inv h
  rw [next_inv h1]
  split at h2
  · split at h2
    · rename_i hb
      obtain ⟨-, rfl⟩ := pure_inv h2
      rw [Nat.eq_of_beq_eq_true hb]
    · exact (fail_inv h2).elim
  · exact (fail_inv h2).elim

theorem expect_then {β : Type} {n : Name} {p : P β} {l : Toks} {r : β × Toks} (h : (expect n >>= fun _ => p) l = some r) :
    ∃ k, l = .op n :: k ∧ p k = some r := by
  obtain ⟨b, m, h1, h2⟩ := bind_inv h
  exact ⟨m, expect_inv h1, h2⟩

/-! ## The tables of the parser and of the grammar -/

theorem keywords_same : (∀ n ∈ reserved, n = 0 ∨ n ∈ goKeywords) ∧ (∀ n ∈ goKeywords, n ∈ reserved) ∧ 0 ∈ reserved := by decide +kernel

theorem elemN_mem {n : Nat} : ∀ {l : List Nat}, elemN n l = true ↔ n ∈ l
  | [] => by simp [elemN]
  | m :: l => by simp [elemN, elemN_mem (l := l)]

theorem isIdent_iff {n : Name} : IsIdent n ↔ elemN n reserved = false := by
  rw [← Bool.not_eq_true, elemN_mem]
  constructor
  · rintro ⟨h1, h2⟩ h
    exact (keywords_same.1 n h).elim h1 h2
  · intro h
    exact ⟨by rintro rfl; exact h keywords_same.2.2, fun h' => h (keywords_same.2.1 n h')⟩

theorem binOps_same {o : Name} {op : BinOp} {q : Nat} (h : (o, op, q) ∈ binOps) : (o, op, q) ∈ binaryOps := by
  simp only [binOps, List.mem_cons, List.not_mem_nil, or_false] at h
  rcases h with h | h | h | h | h | h | h | h | h | h | h | h | h | h | h | h | h | h <;> rw [h] <;> simp [binaryOps]

theorem asgOps_same {o : Name} {op : BinOp} (h : (o, op) ∈ asgOps) : (o, op) ∈ assignOps := by
  simp only [asgOps, List.mem_cons, List.not_mem_nil, or_false] at h
  rcases h with h | h | h | h | h | h | h | h | h | h <;> rw [h] <;> simp [assignOps]

theorem fields_same (t : Ty) (r : Params) : ∀ ns, fields ns t r = ofType t ns r
  | [] => rfl
  | n :: ns => congrArg (Params.cons n t) (fields_same t r ns)

theorem exprNames_same : ∀ {es : Exprs} {ns : List Name}, exprNames es = some ns → AreNames es ns
  | .nil, _, h => by
    cases h
    exact .nil
  | .cons e es, ns, h => by
    cases e <;> try cases h
    simp only [exprNames, Option.map_eq_some_iff] at h
    obtain ⟨ms, h, rfl⟩ := h
    exact .cons (exprNames_same h)

theorem litType_same {e : Expr} {t : Ty} (h : litType e = some t) : LitType e t := by
  unfold litType at h
  split at h <;> cases h
  · exact .name
  · exact .qual
  · exact .ty

theorem ident_inv {l : Toks} {n : Name} {m : Toks} (h : ident l = some (n, m)) : l = .id n :: m ∧ IsIdent n := by
  unfold ident at h
  obtain ⟨t, k, h1, h2⟩ := bind_inv h
  rw [next_inv h1]
  split at h2
  · split at h2
    · exact (fail_inv h2).elim
    · rename_i hb
      obtain ⟨rfl, rfl⟩ := pure_inv h2
      exact ⟨rfl, isIdent_iff.2 (by simpa using hb)⟩
  · exact (fail_inv h2).elim

theorem ident_then {β : Type} {g : Name → P β} {l : Toks} {r : β × Toks} (h : (ident >>= g) l = some r) :
    ∃ n k, l = .id n :: k ∧ IsIdent n ∧ g n k = some r := by
  obtain ⟨n, m, h1, h2⟩ := bind_inv h
  exact ⟨n, m, (ident_inv h1).1, (ident_inv h1).2, h2⟩

theorem next_then {β : Type} {g : Tok → P β} {l : Toks} {r : β × Toks} (h : (next >>= g) l = some r) :
    ∃ t k, l = t :: k ∧ g t k = some r := by
  obtain ⟨n, m, h1, h2⟩ := bind_inv h
  exact ⟨n, m, next_inv h1, h2⟩

theorem peek_then {β : Type} {g : Tok → P β} {l : Toks} {r : β × Toks} (h : (peek >>= g) l = some r) :
    ∃ t k, l = t :: k ∧ g t l = some r := by
  obtain ⟨n, m, h1, h2⟩ := bind_inv h
  obtain ⟨rfl, k, e⟩ := peek_inv h1
  exact ⟨n, k, e, h2⟩

theorem find_mem {α : Type} {n : Name} {a : α} : ∀ {tab : List (Name × α)}, find n tab = some a → (n, a) ∈ tab
  | [], h => by simp [find] at h
  | (m, b) :: tab, h => by
    unfold find at h
    split at h
    · rename_i hb
      rw [Nat.eq_of_beq_eq_true hb]
      simp at h
      simp [h]
    · exact List.mem_cons_of_mem _ (find_mem h)

theorem IsIdent.ne_zero {n : Name} (h : IsIdent n) : n ≠ 0 := by
  exact h.1

/-! ## Names, braces and parameters -/

theorem moreNames_sound : ∀ {f : Nat} {l : Toks} {ns : List Name} {m : Toks}, moreNames f l = some (ns, m) →
    ∀ n, IsIdent n → ∃ ts, .id n :: l = ts ++ m ∧ GNames ts (n :: ns)
  | 0, _, _, _, h, _, _ => (fail_inv h).elim
  | f + 1, l, ns, m, h, n, hn => by
    unfold moreNames at h
    obtain ⟨k, rfl, h⟩ | ⟨-, h⟩ := accept_then h
    · obtain ⟨n', k', rfl, hn', h⟩ := ident_then h
      obtain ⟨ns', m', h1, h2⟩ := bind_inv h
      obtain ⟨rfl, rfl⟩ := pure_inv h2
      obtain ⟨ts, e, g⟩ := moreNames_sound h1 n' hn'
      exact ⟨_, by rw [e]; rfl, .more hn g⟩
    · obtain ⟨rfl, rfl⟩ := pure_inv h
      exact ⟨_, rfl, .one hn⟩

/-- Tokens that close `d` braces and one more, which is the last token. -/
inductive Closes : Nat → Toks → Prop
  | last {a : Toks} : Balanced a → Closes 0 (a ++ [.op (n! "}")])
  | more {d : Nat} {a b : Toks} : Balanced a → Closes d b → Closes (d + 1) (a ++ .op (n! "}") :: b)

theorem Closes.tok {d : Nat} {ts : Toks} {t : Tok} (h1 : t ≠ .op (n! "{")) (h2 : t ≠ .op (n! "}")) (h : Closes d ts) : Closes d (t :: ts) := by
  cases h with
  | last g => exact .last (.tok h1 h2 g)
  | more g h => exact .more (.tok h1 h2 g) h

theorem Closes.open {d : Nat} {ts : Toks} (h : Closes (d + 1) ts) : Closes d (.op (n! "{") :: ts) := by
  cases h with
  | more g h =>
    cases h with
    | last g' => simpa using Closes.last (.braces g g')
    | more g' h => simpa using Closes.more (.braces g g') h

theorem skipBraces_sound : ∀ {f d : Nat} {l : Toks} {u : Unit} {m : Toks}, skipBraces f d l = some (u, m) → ∃ ts, l = ts ++ m ∧ Closes d ts
  | 0, _, _, _, _, h => (fail_inv h).elim
  | f + 1, d, l, u, m, h => by
    unfold skipBraces at h
    obtain ⟨t, k, rfl, h'⟩ := next_then h
    clear h
    cases t with
    | op o =>
      by_cases h1 : o = n! "{"
      · subst h1
        obtain ⟨ts, rfl, g⟩ := skipBraces_sound (f := f) (d := d + 1) h'
        exact ⟨_, rfl, g.open⟩
      by_cases h2 : o = n! "}"
      · subst h2
        cases d with
        | zero =>
          obtain ⟨-, rfl⟩ := pure_inv (α := Unit) h'
          exact ⟨[_], rfl, .last .nil⟩
        | succ d =>
          obtain ⟨ts, rfl, g⟩ := skipBraces_sound (f := f) (d := d) h'
          exact ⟨_ :: ts, rfl, .more .nil g⟩
      · simp only [Nat.beq_eq, h1, h2, if_false] at h'
        obtain ⟨ts, rfl, g⟩ := skipBraces_sound (f := f) (d := d) h'
        exact ⟨_, rfl, g.tok (fun e => h1 (by injection e)) (fun e => h2 (by injection e))⟩
    | _ =>
      obtain ⟨ts, rfl, g⟩ := skipBraces_sound (f := f) (d := d) h'
      exact ⟨_, rfl, g.tok (fun e => by cases e) (fun e => by cases e)⟩

theorem skipBraces_zero {f : Nat} {l : Toks} {u : Unit} {m : Toks} (h : skipBraces f 0 l = some (u, m)) :
    ∃ ts, l = ts ++ .op (n! "}") :: m ∧ Balanced ts := by
  obtain ⟨ts, rfl, g⟩ := skipBraces_sound h
  cases g with
  | last g => exact ⟨_, by simp, g⟩

/-- Parameters as read. -/
inductive GRaw : Toks → List (Name × Ty) → Prop
  | nil : GRaw [] []
  | lastT {ts : Toks} {t : Ty} : GType ts t → GRaw ts [(0, t)]
  | lastN {n : Name} {ts : Toks} {t : Ty} : IsIdent n → GType ts t → GRaw (.id n :: ts) [(n, t)]
  | consT {ts us : Toks} {t : Ty} {l : List (Name × Ty)} : GType ts t → GRaw us l → GRaw (ts ++ .op (n! ",") :: us) ((0, t) :: l)
  | consN {n : Name} {ts us : Toks} {t : Ty} {l : List (Name × Ty)} : IsIdent n → GType ts t → GRaw us l →
      GRaw (.id n :: ts ++ .op (n! ",") :: us) ((n, t) :: l)

theorem GType.name_inv {ts : Toks} {n : Name} (h : GType ts (.name n)) : ts = [.id n] ∧ IsIdent n := by
  cases h with
  | name h => exact ⟨rfl, h⟩

theorem GNames.ne_nil {ts : Toks} {l : List Name} (h : GNames ts l) : ∃ n r, l = n :: r := by
  cases h <;> exact ⟨_, _, rfl⟩

theorem GNamed.more {ts : Toks} {p : Params} (h : GNamed ts p) {n m : Name} {t : Ty} {r : Params} (hn : IsIdent n) (e : p = .cons m t r) :
    GNamed (.id n :: .op (n! ",") :: ts) (.cons n t p) := by
  cases h with
  | nil => cases e
  | last h g =>
    obtain ⟨a, b, rfl⟩ := h.ne_nil
    simp only [ofType] at e
    injection e with e1 e2 e3
    subst e2
    exact GNamed.last (.more hn h) g
  | cons h g g' =>
    obtain ⟨a, b, rfl⟩ := h.ne_nil
    simp only [ofType] at e
    injection e with e1 e2 e3
    subst e2
    exact GNamed.cons (.more hn h) g g'

theorem GRaw.types {ts : Toks} {l : List (Name × Ty)} (h : GRaw ts l) (e : isNamed l = false) : GTypes ts (toParams l) := by
  induction h with
  | nil => exact .nil
  | lastT g => exact .last g
  | lastN hn g => simp [isNamed, Nat.beq_eq, hn.ne_zero] at e
  | consT g _ ih => exact .cons g (ih (by simpa [isNamed] using e))
  | consN hn g _ ih => simp [isNamed, Nat.beq_eq, hn.ne_zero] at e

theorem groupNamed_named {n : Name} {t : Ty} {l : List (Name × Ty)} (hn : n ≠ 0) :
    groupNamed ((n, t) :: l) = match groupNamed l with | some l => some ((n, t) :: l) | none => none := by
  cases n with
  | zero => exact absurd rfl hn
  | succ n => rfl

theorem GRaw.named {ts : Toks} {l : List (Name × Ty)} (h : GRaw ts l) : ∀ {l' : List (Name × Ty)}, groupNamed l = some l' →
    GNamed ts (toParams l') := by
  induction h with
  | nil =>
    intro l' e
    cases e
    exact .nil
  | lastT g =>
    intro l' e
    unfold groupNamed at e
    split at e <;> simp_all [groupNamed]
  | lastN hn g =>
    intro l' e
    rw [groupNamed_named hn.ne_zero] at e
    cases e
    exact .last (.one hn) g
  | @consT ts us t l g _ ih =>
    intro l' e
    cases t with
    | name n =>
      obtain ⟨rfl, hn⟩ := g.name_inv
      change (match groupNamed l with | some ((m, t) :: l) => some ((n, t) :: (m, t) :: l) | _ => none) = some l' at e
      split at e
      · rename_i h
        cases e
        exact (ih h).more hn rfl
      · cases e
    | _ => cases e
  | @consN n ts us t l hn g _ ih =>
    intro l' e
    rw [groupNamed_named hn.ne_zero] at e
    split at e
    · rename_i h
      cases e
      exact .cons (.one hn) g (ih h)
    · cases e

theorem group_sound {ts : Toks} {l : List (Name × Ty)} (h : GRaw ts l) {m m' : Toks} {p : Params} (e : group l m = some (p, m')) :
    m = m' ∧ GParams (.op (n! "(") :: ts ++ [.op (n! ")")]) p := by
  unfold group at e
  split at e
  · split at e
    · rename_i h'
      cases e
      exact ⟨rfl, .named (h.named h')⟩
    · cases e
  · rename_i hn
    cases e
    exact ⟨rfl, .types (h.types (by simpa using hn))⟩

/-! ## Precedences -/

/-- No binary operator of precedence `k` or more comes next. -/
def NextBelow (k : Nat) (l : Toks) : Prop := ∀ o r op q, l = .op o :: r → find o binOps = some (op, q) → q < k

theorem binOps_prec {o : Name} {op : BinOp} {q : Nat} (h : (o, op, q) ∈ binOps) : q ≤ 5 := by
  simp [binOps] at h
  rcases h with h | h | h | h | h | h | h | h | h | h | h | h | h | h | h | h | h | h <;> simp [h]

theorem GExpr.mono {nl : Bool} {p q : Nat} {ts : Toks} {e : Expr} (h : GExpr nl p ts e) (hq : q ≤ p) : GExpr nl q ts e := by
  cases h with
  | unary h => exact .unary h
  | bin h1 h2 h3 h4 => exact .bin h1 (Nat.le_trans hq h2) h3 h4

theorem peekBin_then {β : Type} {g : Option (BinOp × Nat) → P β} {l : Toks} {r : β × Toks} (h : (peekBin >>= g) l = some r) :
    (∃ o k, l = .op o :: k ∧ g (find o binOps) l = some r) ∨ ((∀ o k, l ≠ .op o :: k) ∧ g none l = some r) := by
  obtain ⟨a, m, h1, h2⟩ := bind_inv h
  unfold peekBin at h1
  split at h1
  · cases h1
    exact .inl ⟨_, _, rfl, h2⟩
  · rename_i hn
    cases h1
    exact .inr ⟨hn, h2⟩

/-- What `pSimple` returns: a simple statement or, in the header of a loop, a range clause. -/
def GHead (nl : Bool) (ts : Toks) (s : Stmt) : Prop :=
  GSimple nl ts s ∨ ∃ k v e, s = .range k v e .nil ∧ (nl = true → GRange ts k v e)

/-- What is proved of the functions of the parser with the bound `f`. -/
structure Sound (f : Nat) : Prop where
  type : ∀ {l t m}, pType f l = some (t, m) → ∃ ts, l = ts ++ m ∧ GType ts t
  fields : ∀ {l p m}, pFields f l = some (p, m) → ∃ ts, l = ts ++ .op (n! "}") :: m ∧ GFields ts p
  params : ∀ {l p m}, pParams f l = some (p, m) → ∃ ts, l = ts ++ m ∧ GParams ts p
  paramList : ∀ {l p m}, pParamList f l = some (p, m) → ∃ ts, l = ts ++ .op (n! ")") :: m ∧ GRaw ts p
  results : ∀ {l p m}, pResults f l = some (p, m) → ∃ ts, l = ts ++ m ∧ GResults ts p
  expr : ∀ {p nl l e m}, pExpr f p nl l = some (e, m) → ∃ ts, l = ts ++ m ∧ GExpr nl p ts e ∧ NextBelow p m
  bin : ∀ {p nl a l e m}, pBin f p nl a l = some (e, m) → ∀ {c as}, p ≤ c → GExpr nl c as a → NextBelow (c + 1) l →
    ∃ ts, l = ts ++ m ∧ GExpr nl p (as ++ ts) e ∧ NextBelow p m
  unary : ∀ {nl l e m}, pUnary f nl l = some (e, m) → ∃ ts, l = ts ++ m ∧ GUnary nl ts e
  operand : ∀ {l e m}, pOperand f l = some (e, m) → (∀ k, l ≠ .op (n! "*") :: k) → ∀ nl, ∃ ts, l = ts ++ m ∧ GPrimary nl ts e
  suffix : ∀ {nl a l e m}, pSuffix f nl a l = some (e, m) → ∀ {as}, GPrimary nl as a → ∃ ts, l = ts ++ m ∧ GPrimary nl (as ++ ts) e
  args : ∀ {l r m}, pArgs f l = some (r, m) → ∃ ts, l = ts ++ .op (n! ")") :: m ∧ GArgs ts r.1 r.2
  elts : ∀ {l r m}, pElts f l = some (r, m) → ∃ ts, l = ts ++ .op (n! "}") :: m ∧ GElts ts r
  exprs : ∀ {nl l r m}, pExprs f nl l = some (r, m) → ∃ ts, l = ts ++ m ∧ GExprs nl ts r
  simple : ∀ {nl l s m}, pSimple f nl l = some (s, m) → ∃ ts, l = ts ++ m ∧ GHead nl ts s
  block : ∀ {l b m}, pBlock f l = some (b, m) → ∃ ts, l = ts ++ m ∧ GBlock ts b
  stmts : ∀ {l b m}, pStmts f l = some (b, m) → ∃ ts, l = ts ++ m ∧ GStmts ts b
  stmt : ∀ {l s m}, pStmt f l = some (s, m) → ∃ ts, l = ts ++ m ∧ GStmt ts s
  ifs : ∀ {l s m}, pIf f l = some (s, m) → ∃ ts, l = ts ++ m ∧ GIf ts s
  cases : ∀ {l r m}, pCases f l = some (r, m) → ∃ ts, l = ts ++ .op (n! "}") :: m ∧ GCases ts r

theorem sound_zero : Sound 0 := by
  constructor <;> intros <;> rename _ = some _ => h <;>
    simp [pType, pFields, pParams, pParamList, pResults, pExpr, pBin, pUnary, pOperand, pSuffix, pArgs, pElts, pExprs, pSimple, pBlock, pStmts,
      pStmt, pIf, pCases, fail] at h

-- PLACE -/
open Lean.Parser.Tactic in
local macro "peel " p:rcasesPatMed " := " t:ident h:ident : tactic => `(tactic| (have t := $t $h; clear $h; obtain $p:rcasesPatMed := t))

variable {f : Nat}

theorem pType_sound (S : Sound f) {l : Toks} {t : Ty} {m : Toks} (h : pType (f + 1) l = some (t, m)) : ∃ ts, l = ts ++ m ∧ GType ts t := by
  unfold pType at h
  peel ⟨x, k, rfl, h⟩ := next_then h
  cases x with
  | id n =>
    dsimp only at h
    split at h
    · rename_i hb
      obtain rfl := Nat.eq_of_beq_eq_true hb
      peel ⟨ps, k1, h1, h⟩ := bind_inv h
      peel ⟨rs, k2, h2, h⟩ := bind_inv h
      peel ⟨rfl, rfl⟩ := pure_inv h
      peel ⟨t1, rfl, g1⟩ := S.params h1
      peel ⟨t2, rfl, g2⟩ := S.results h2
      exact ⟨_, by simp, .func g1 g2⟩
    split at h
    · rename_i hb
      obtain rfl := Nat.eq_of_beq_eq_true hb
      peel ⟨k1, rfl, h⟩ := expect_then h
      peel ⟨_, k2, h2, h⟩ := bind_inv h
      peel ⟨rfl, rfl⟩ := pure_inv h
      obtain ⟨t1, rfl, g1⟩ := skipBraces_zero h2
      exact ⟨_, by simp, .iface g1⟩
    split at h
    · rename_i hb
      obtain rfl := Nat.eq_of_beq_eq_true hb
      peel ⟨k1, rfl, h⟩ := expect_then h
      peel ⟨_, k2, h2, h⟩ := bind_inv h
      peel ⟨rfl, rfl⟩ := pure_inv h
      peel ⟨t1, rfl, g1⟩ := S.fields h2
      exact ⟨_, by simp, .struct g1⟩
    split at h
    · exact (fail_inv h).elim
    · rename_i hn
      have hn : IsIdent n := isIdent_iff.2 (by simpa using hn)
      peel ⟨k1, rfl, h⟩ | ⟨-, h⟩ := accept_then h
      · peel ⟨n', k', rfl, hn', h⟩ := ident_then h
        peel ⟨rfl, rfl⟩ := pure_inv h
        exact ⟨_, by simp, .qual hn hn'⟩
      · peel ⟨rfl, rfl⟩ := pure_inv h
        exact ⟨_, by simp, .name hn⟩
  | op o =>
    dsimp only at h
    split at h
    · rename_i hb
      obtain rfl := Nat.eq_of_beq_eq_true hb
      peel ⟨_, k2, h2, h⟩ := bind_inv h
      peel ⟨rfl, rfl⟩ := pure_inv h
      peel ⟨t1, rfl, g1⟩ := S.type h2
      exact ⟨_, by simp, .ptr g1⟩
    split at h
    · rename_i hb
      obtain rfl := Nat.eq_of_beq_eq_true hb
      peel ⟨k1, rfl, h⟩ | ⟨-, h⟩ := accept_then h
      · peel ⟨_, k2, h2, h⟩ := bind_inv h
        peel ⟨rfl, rfl⟩ := pure_inv h
        peel ⟨t1, rfl, g1⟩ := S.type h2
        exact ⟨_, by simp, .slice g1⟩
      peel ⟨k1, rfl, h⟩ | ⟨-, h⟩ := accept_then h
      · peel ⟨k1, rfl, h⟩ := expect_then h
        peel ⟨_, k2, h2, h⟩ := bind_inv h
        peel ⟨rfl, rfl⟩ := pure_inv h
        peel ⟨t1, rfl, g1⟩ := S.type h2
        exact ⟨_, by simp, .dots g1⟩
      · peel ⟨_, k1, h1, h⟩ := bind_inv h
        peel ⟨k2, rfl, h⟩ := expect_then h
        peel ⟨_, k3, h2, h⟩ := bind_inv h
        peel ⟨rfl, rfl⟩ := pure_inv h
        peel ⟨t1, rfl, g1, -⟩ := S.expr h1
        peel ⟨t2, rfl, g2⟩ := S.type h2
        exact ⟨_, by simp, .array g1 g2⟩
    · exact (fail_inv h).elim
  | _ => exact (fail_inv h).elim

theorem pFields_sound (S : Sound f) {l : Toks} {p : Params} {m : Toks} (h : pFields (f + 1) l = some (p, m)) :
    ∃ ts, l = ts ++ .op (n! "}") :: m ∧ GFields ts p := by
  unfold pFields at h
  peel ⟨k1, rfl, h⟩ | ⟨-, h⟩ := accept_then h
  · peel ⟨rfl, rfl⟩ := pure_inv h
    exact ⟨[], rfl, .nil⟩
  peel ⟨n, k1, rfl, hn, h⟩ := ident_then h
  peel ⟨ns, k2, h1, h⟩ := bind_inv h
  peel ⟨t, k3, h2, h⟩ := bind_inv h
  obtain ⟨t1, e1, g1⟩ := moreNames_sound h1 n hn
  peel ⟨t2, rfl, g2⟩ := S.type h2
  rw [e1]
  peel ⟨k4, rfl, h⟩ | ⟨-, h⟩ := accept_then h
  · peel ⟨_, k5, h3, h⟩ := bind_inv h
    peel ⟨rfl, rfl⟩ := pure_inv h
    peel ⟨t3, rfl, g3⟩ := S.fields h3
    rw [fields_same]
    exact ⟨_, by simp, .cons g1 g2 g3⟩
  · peel ⟨k4, rfl, h⟩ := expect_then h
    peel ⟨rfl, rfl⟩ := pure_inv h
    rw [fields_same]
    exact ⟨_, by simp, .last g1 g2⟩

theorem pParams_sound (S : Sound f) {l : Toks} {p : Params} {m : Toks} (h : pParams (f + 1) l = some (p, m)) :
    ∃ ts, l = ts ++ m ∧ GParams ts p := by
  unfold pParams at h
  peel ⟨k1, rfl, h⟩ := expect_then h
  peel ⟨_, k2, h1, h⟩ := bind_inv h
  peel ⟨t1, rfl, g1⟩ := S.paramList h1
  obtain ⟨rfl, g⟩ := group_sound g1 h
  exact ⟨_, by simp, g⟩

theorem pParamList_sound (S : Sound f) {l : Toks} {p : List (Name × Ty)} {m : Toks} (h : pParamList (f + 1) l = some (p, m)) :
    ∃ ts, l = ts ++ .op (n! ")") :: m ∧ GRaw ts p := by
  simp only [pParamList] at h
  peel ⟨k1, rfl, h⟩ | ⟨-, h⟩ := accept_then h
  · peel ⟨rfl, rfl⟩ := pure_inv h
    exact ⟨[], rfl, .nil⟩
  peel ⟨t, k1, h1, h⟩ := bind_inv h
  peel ⟨t1, rfl, g1⟩ := S.type h1
  peel ⟨sep, k2, h2, h⟩ := bind_inv h
  peel ⟨close, k3, h3, h⟩ := bind_inv h
  peel ⟨rfl, -⟩ := isOp_inv h2
  peel ⟨rfl, -⟩ := isOp_inv h3
  split at h
  · peel ⟨p, k4, h4, h⟩ := bind_inv h
    peel ⟨rfl, rfl⟩ := pure_inv h4
    peel ⟨k5, rfl, h⟩ | ⟨-, h⟩ := accept_then h
    · peel ⟨_, k6, h5, h⟩ := bind_inv h
      peel ⟨rfl, rfl⟩ := pure_inv h
      peel ⟨t2, rfl, g2⟩ := S.paramList h5
      exact ⟨_, by simp, .consT g1 g2⟩
    · peel ⟨k5, rfl, h⟩ := expect_then h
      peel ⟨rfl, rfl⟩ := pure_inv h
      exact ⟨_, rfl, .lastT g1⟩
  · split at h
    · obtain ⟨rfl, hn⟩ := g1.name_inv
      peel ⟨t', k4, h4, h⟩ := bind_inv h
      peel ⟨t2, rfl, g2⟩ := S.type h4
      peel ⟨p, k4, h4, h⟩ := bind_inv h
      peel ⟨rfl, rfl⟩ := pure_inv h4
      peel ⟨k5, rfl, h⟩ | ⟨-, h⟩ := accept_then h
      · peel ⟨_, k6, h5, h⟩ := bind_inv h
        peel ⟨rfl, rfl⟩ := pure_inv h
        peel ⟨t3, rfl, g3⟩ := S.paramList h5
        exact ⟨_, by simp, .consN hn g2 g3⟩
      · peel ⟨k5, rfl, h⟩ := expect_then h
        peel ⟨rfl, rfl⟩ := pure_inv h
        exact ⟨_, by simp, .lastN hn g2⟩
    · peel ⟨_, _, h4, -⟩ := bind_inv h
      exact (fail_inv h4).elim

theorem pResults_sound (S : Sound f) {l : Toks} {p : Params} {m : Toks} (h : pResults (f + 1) l = some (p, m)) :
    ∃ ts, l = ts ++ m ∧ GResults ts p := by
  unfold pResults at h
  peel ⟨h, -⟩ | ⟨h, -⟩ := isOp_then h
  · peel ⟨t1, rfl, g1⟩ := S.params h
    exact ⟨_, rfl, .many g1⟩
  · peel ⟨a, k1, h1, h⟩ := bind_inv h
    peel ⟨b, k2, h2, h⟩ := bind_inv h
    peel ⟨c, k3, h3, h⟩ := bind_inv h
    peel ⟨d, k4, h4, h⟩ := bind_inv h
    peel ⟨rfl, -⟩ := isOp_inv h1
    peel ⟨rfl, -⟩ := isOp_inv h2
    peel ⟨rfl, -⟩ := isOp_inv h3
    peel ⟨rfl, -⟩ := isOp_inv h4
    split at h
    · peel ⟨rfl, rfl⟩ := pure_inv h
      exact ⟨[], rfl, .none⟩
    · peel ⟨_, k5, h5, h⟩ := bind_inv h
      peel ⟨rfl, rfl⟩ := pure_inv h
      peel ⟨t1, rfl, g1⟩ := S.type h5
      exact ⟨_, rfl, .one g1⟩

theorem pExpr_sound (S : Sound f) {p : Nat} {nl : Bool} {l : Toks} {e : Expr} {m : Toks} (h : pExpr (f + 1) p nl l = some (e, m)) :
    ∃ ts, l = ts ++ m ∧ GExpr nl p ts e ∧ NextBelow p m := by
  unfold pExpr at h
  peel ⟨a, k1, h1, h⟩ := bind_inv h
  peel ⟨t1, rfl, g1⟩ := S.unary h1
  obtain ⟨t2, rfl, g2, hb⟩ := S.bin h (Nat.le_max_left p 5) (.unary g1)
    (fun o r op q _ hf => Nat.lt_succ_of_le (Nat.le_trans (binOps_prec (find_mem hf)) (Nat.le_max_right p 5)))
  exact ⟨_, by simp, g2, hb⟩

theorem pBin_sound (S : Sound f) {p : Nat} {nl : Bool} {a : Expr} {l : Toks} {e : Expr} {m : Toks} (h : pBin (f + 1) p nl a l = some (e, m))
    {c : Nat} {as : Toks} (hc : p ≤ c) (ga : GExpr nl c as a) (hb : NextBelow (c + 1) l) :
    ∃ ts, l = ts ++ m ∧ GExpr nl p (as ++ ts) e ∧ NextBelow p m := by
  unfold pBin at h
  peel ⟨o, k, rfl, h⟩ | ⟨hn, h⟩ := peekBin_then h
  · rcases hf : find o binOps with _ | ⟨op, q⟩
    rotate_left
    · rw [hf] at h
      dsimp only at h
      split at h
      · rename_i hp
        peel ⟨_, k1, h1, h⟩ := bind_inv h
        have e1 := next_inv h1
        injection e1 with _ e1
        subst e1
        peel ⟨b, k2, h2, h⟩ := bind_inv h
        peel ⟨t1, rfl, g1, hb1⟩ := S.expr h2
        have hq : q ≤ c := Nat.le_of_lt_succ (hb _ _ _ _ rfl hf)
        obtain ⟨t2, rfl, g2, hb2⟩ := S.bin h (Nat.le_of_ble_eq_true hp) (GExpr.bin (binOps_same (find_mem hf)) (Nat.le_refl q) (ga.mono hq) g1) hb1
        exact ⟨.op o :: t1 ++ t2, by simp, by simpa using g2, hb2⟩
      · rename_i hp
        peel ⟨rfl, rfl⟩ := pure_inv h
        refine ⟨[], rfl, by simpa using ga.mono hc, ?_⟩
        intro o' r' op' q' e' hf'
        injection e' with e1 e2
        injection e1 with e1
        subst e1
        rw [hf] at hf'
        cases hf'
        exact Nat.lt_of_not_le fun hle => hp (Nat.ble_eq_true_of_le hle)
    · rw [hf] at h
      peel ⟨rfl, rfl⟩ := pure_inv h
      refine ⟨[], rfl, by simpa using ga.mono hc, ?_⟩
      intro o' r' op' q' e' hf'
      injection e' with e1 e2
      injection e1 with e1
      subst e1
      rw [hf] at hf'
      cases hf'
  · peel ⟨rfl, rfl⟩ := pure_inv h
    exact ⟨[], rfl, by simpa using ga.mono hc, fun o' r' op' q' e' _ => (hn _ _ e').elim⟩

theorem pUnary_sound (S : Sound f) {nl : Bool} {l : Toks} {e : Expr} {m : Toks} (h : pUnary (f + 1) nl l = some (e, m)) :
    ∃ ts, l = ts ++ m ∧ GUnary nl ts e := by
  unfold pUnary at h
  peel ⟨k, rfl, h⟩ | ⟨-, h⟩ := accept_then h
  · peel ⟨_, k1, h1, h⟩ := bind_inv h
    peel ⟨rfl, rfl⟩ := pure_inv h
    peel ⟨t1, rfl, g1⟩ := S.unary h1
    exact ⟨_, rfl, .un (by simp [unOps]) g1⟩
  peel ⟨k, rfl, h⟩ | ⟨-, h⟩ := accept_then h
  · peel ⟨_, k1, h1, h⟩ := bind_inv h
    peel ⟨rfl, rfl⟩ := pure_inv h
    peel ⟨t1, rfl, g1⟩ := S.unary h1
    exact ⟨_, rfl, .un (by simp [unOps]) g1⟩
  peel ⟨k, rfl, h⟩ | ⟨-, h⟩ := accept_then h
  · peel ⟨_, k1, h1, h⟩ := bind_inv h
    peel ⟨rfl, rfl⟩ := pure_inv h
    peel ⟨t1, rfl, g1⟩ := S.unary h1
    exact ⟨_, rfl, .un (by simp [unOps]) g1⟩
  peel ⟨k, rfl, h⟩ | ⟨-, h⟩ := accept_then h
  · peel ⟨_, k1, h1, h⟩ := bind_inv h
    peel ⟨rfl, rfl⟩ := pure_inv h
    peel ⟨t1, rfl, g1⟩ := S.unary h1
    exact ⟨_, rfl, .un (by simp [unOps]) g1⟩
  peel ⟨k, rfl, h⟩ | ⟨hs, h⟩ := accept_then h
  · peel ⟨_, k1, h1, h⟩ := bind_inv h
    peel ⟨rfl, rfl⟩ := pure_inv h
    peel ⟨t1, rfl, g1⟩ := S.unary h1
    exact ⟨_, rfl, .un (by simp [unOps]) g1⟩
  peel ⟨a, k1, h1, h⟩ := bind_inv h
  obtain ⟨t1, rfl, g1⟩ := S.operand h1 hs nl
  obtain ⟨t2, rfl, g2⟩ := S.suffix h g1
  exact ⟨_, by simp, .primary g2⟩

/-- A type that does not begin with a name or a star. -/
theorem GType.lit {ts : Toks} {t : Ty} (h : GType ts t) (h1 : ∀ k, ts ≠ .op (n! "*") :: k) (h2 : ∀ n k, ts = .id n :: k → ¬ IsIdent n) :
    IsLitType t := by
  cases h with
  | name h => exact (h2 _ _ rfl h).elim
  | qual h _ => exact (h2 _ _ rfl h).elim
  | ptr _ => exact (h1 _ rfl).elim
  | _ => trivial

theorem pOperand_sound (S : Sound f) {l : Toks} {e : Expr} {m : Toks} (h : pOperand (f + 1) l = some (e, m))
    (hs : ∀ k, l ≠ .op (n! "*") :: k) (nl : Bool) : ∃ ts, l = ts ++ m ∧ GPrimary nl ts e := by
  unfold pOperand at h
  peel ⟨x, k, rfl, h⟩ := peek_then h
  cases x with
  | int n =>
    peel ⟨_, k1, h1, h⟩ := bind_inv h
    cases h1
    peel ⟨rfl, rfl⟩ := pure_inv h
    exact ⟨[_], rfl, .int⟩
  | str s =>
    peel ⟨_, k1, h1, h⟩ := bind_inv h
    cases h1
    peel ⟨rfl, rfl⟩ := pure_inv h
    exact ⟨[_], rfl, .str⟩
  | op o =>
    dsimp only at h
    split at h
    · rename_i hb
      obtain rfl := Nat.eq_of_beq_eq_true hb
      peel ⟨_, k1, h1, h⟩ := bind_inv h
      cases h1
      peel ⟨_, k2, h2, h⟩ := bind_inv h
      peel ⟨k3, rfl, h⟩ := expect_then h
      peel ⟨rfl, rfl⟩ := pure_inv h
      peel ⟨t1, rfl, g1, -⟩ := S.expr h2
      exact ⟨_, by simp, .paren g1⟩
    · peel ⟨t, k1, h1, h⟩ := bind_inv h
      peel ⟨rfl, rfl⟩ := pure_inv h
      peel ⟨t1, e1, g1⟩ := S.type h1
      refine ⟨t1, e1, .ty (g1.lit ?_ ?_) g1⟩
      · rintro j rfl
        exact hs _ e1
      · rintro n j rfl
        cases e1
  | id n =>
    dsimp only at h
    split at h
    · rename_i hb
      obtain rfl := Nat.eq_of_beq_eq_true hb
      peel ⟨t, k1, h1, h⟩ := bind_inv h
      peel ⟨t1, e1, g1⟩ := S.type h1
      split at h
      · peel ⟨h, -⟩ | ⟨h, -⟩ := isOp_then h
        · peel ⟨b, k2, h2, h⟩ := bind_inv h
          peel ⟨rfl, rfl⟩ := pure_inv h
          peel ⟨t2, rfl, g2⟩ := S.block h2
          cases g1 with
          | func gp gr => exact ⟨_, by rw [e1]; simp, .func gp gr g2⟩
        · peel ⟨rfl, rfl⟩ := pure_inv h
          exact ⟨t1, e1, .ty trivial g1⟩
      · exact (fail_inv h).elim
    split at h
    · rename_i hb
      peel ⟨t, k1, h1, h⟩ := bind_inv h
      peel ⟨rfl, rfl⟩ := pure_inv h
      peel ⟨t1, e1, g1⟩ := S.type h1
      refine ⟨t1, e1, .ty (g1.lit ?_ ?_) g1⟩
      · rintro j rfl
        cases e1
      · rintro n' j rfl
        injection e1 with e1 _
        injection e1 with e1
        subst e1
        rw [Bool.or_eq_true] at hb
        obtain hb | hb := hb
        · obtain rfl := Nat.eq_of_beq_eq_true hb
          exact fun h => h.2 (by decide +kernel)
        · obtain rfl := Nat.eq_of_beq_eq_true hb
          exact fun h => h.2 (by decide +kernel)
    split at h
    · exact (fail_inv h).elim
    · rename_i hn
      peel ⟨_, k1, h1, h⟩ := bind_inv h
      cases h1
      peel ⟨rfl, rfl⟩ := pure_inv h
      exact ⟨[_], rfl, .id (isIdent_iff.2 (by simpa using hn))⟩

theorem pSuffix_sound (S : Sound f) {nl : Bool} {a : Expr} {l : Toks} {e : Expr} {m : Toks} (h : pSuffix (f + 1) nl a l = some (e, m))
    {as : Toks} (ga : GPrimary nl as a) : ∃ ts, l = ts ++ m ∧ GPrimary nl (as ++ ts) e := by
  simp only [pSuffix] at h
  peel ⟨k, rfl, h⟩ | ⟨-, h⟩ := accept_then h
  · peel ⟨k, rfl, h⟩ | ⟨-, h⟩ := accept_then h
    · peel ⟨t, k1, h1, h⟩ := bind_inv h
      peel ⟨k2, rfl, h⟩ := expect_then h
      peel ⟨t1, rfl, g1⟩ := S.type h1
      obtain ⟨t2, rfl, g2⟩ := S.suffix h (.assert ga g1)
      exact ⟨.op (n! ".") :: .op (n! "(") :: t1 ++ [.op (n! ")")] ++ t2, by simp, by simpa using g2⟩
    · peel ⟨n, k1, rfl, hn, h⟩ := ident_then h
      obtain ⟨t2, rfl, g2⟩ := S.suffix h (.sel ga hn)
      exact ⟨_ :: _ :: t2, rfl, by simpa using g2⟩
  peel ⟨k, rfl, h⟩ | ⟨-, h⟩ := accept_then h
  · peel ⟨r, k1, h1, h⟩ := bind_inv h
    peel ⟨t1, rfl, g1⟩ := S.args h1
    obtain ⟨t2, rfl, g2⟩ := S.suffix h (.call ga g1)
    exact ⟨.op (n! "(") :: t1 ++ [.op (n! ")")] ++ t2, by simp, by simpa using g2⟩
  peel ⟨k, rfl, h⟩ | ⟨-, h⟩ := accept_then h
  · have slice : ∀ {us : Toks} {lo : Expr} {k0 : Toks}, GOpt us lo →
        (isOp (n! "]") >>= fun b => if b = true then (pure Expr.none >>= fun hi => expect (n! "]") >>= fun _ => pSuffix f nl (.slc a lo hi))
          else (pExpr f 1 false >>= fun hi => expect (n! "]") >>= fun _ => pSuffix f nl (.slc a lo hi))) k0 = some (e, m) →
        ∃ ts, .op (n! "[") :: us ++ .op (n! ":") :: k0 = ts ++ m ∧ GPrimary nl (as ++ ts) e := by
      intro us lo k0 gl h
      peel ⟨h, -⟩ | ⟨h, -⟩ := isOp_then h
      · peel ⟨_, k1, h1, h⟩ := bind_inv h
        peel ⟨rfl, rfl⟩ := pure_inv h1
        peel ⟨k2, rfl, h⟩ := expect_then h
        obtain ⟨t2, rfl, g2⟩ := S.suffix h (.slc ga gl .none)
        exact ⟨.op (n! "[") :: us ++ [.op (n! ":"), .op (n! "]")] ++ t2, by simp, by simpa using g2⟩
      · peel ⟨_, k1, h1, h⟩ := bind_inv h
        peel ⟨t1, rfl, g1, -⟩ := S.expr h1
        peel ⟨k2, rfl, h⟩ := expect_then h
        obtain ⟨t2, rfl, g2⟩ := S.suffix h (.slc ga gl (.some g1))
        exact ⟨.op (n! "[") :: us ++ .op (n! ":") :: t1 ++ [.op (n! "]")] ++ t2, by simp, by simpa using g2⟩
    peel ⟨h, k1, rfl⟩ | ⟨h, -⟩ := isOp_then h
    · peel ⟨lo, k2, h1, h⟩ := bind_inv h
      peel ⟨rfl, rfl⟩ := pure_inv h1
      peel ⟨k2, e2, h⟩ | ⟨hne, -⟩ := accept_then h
      · injection e2 with _ e2
        subst e2
        exact slice .none h
      · exact (hne _ rfl).elim
    · peel ⟨lo, k2, h1, h⟩ := bind_inv h
      peel ⟨t1, rfl, g1, -⟩ := S.expr h1
      peel ⟨k2, rfl, h⟩ | ⟨-, h⟩ := accept_then h
      · obtain ⟨ts, e1, g⟩ := slice (.some g1) h
        exact ⟨ts, by rw [← e1]; simp, g⟩
      · peel ⟨k3, rfl, h⟩ := expect_then h
        obtain ⟨t2, rfl, g2⟩ := S.suffix h (.idx ga g1)
        exact ⟨.op (n! "[") :: t1 ++ [.op (n! "]")] ++ t2, by simp, by simpa using g2⟩
  peel ⟨h, k, rfl⟩ | ⟨h, -⟩ := isOp_then h
  · rw [if_pos rfl] at h
    have comp : ∀ {t : Ty}, litType a = some t → nl = false ∨ IsTy a →
        (next >>= fun _ => pElts f >>= fun es => pSuffix f nl (.comp t es)) (.op (n! "{") :: k) = some (e, m) →
        ∃ ts, .op (n! "{") :: k = ts ++ m ∧ GPrimary nl (as ++ ts) e := by
      clear h
      intro t hl hnl h
      peel ⟨_, k1, e1, h⟩ := next_then h
      injection e1 with _ e1
      subst e1
      peel ⟨es, k2, h2, h⟩ := bind_inv h
      peel ⟨t1, rfl, g1⟩ := S.elts h2
      obtain ⟨t2, rfl, g2⟩ := S.suffix h (.comp ga (litType_same hl) hnl g1)
      exact ⟨.op (n! "{") :: t1 ++ [.op (n! "}")] ++ t2, by simp, by simpa using g2⟩
    cases hl : litType a with
    | none =>
      rw [hl] at h
      peel ⟨rfl, rfl⟩ := pure_inv h
      exact ⟨[], rfl, by simpa using ga⟩
    | some t =>
      rw [hl] at h
      by_cases ha : IsTy a
      · cases a <;> first | exact ha.elim | exact comp hl (.inr trivial) h
      · cases nl
        · dsimp only at h
          simp only [Bool.and_false] at h
          exact comp hl (.inl rfl) h
        · cases a <;> first
            | exact (ha trivial).elim
            | (peel ⟨rfl, rfl⟩ := pure_inv h
               exact ⟨[], rfl, by simpa using ga⟩)
  · obtain ⟨rfl, rfl⟩ := pure_inv h
    exact ⟨[], rfl, by simpa using ga⟩

theorem pArgs_sound (S : Sound f) {l : Toks} {r : Exprs × Bool} {m : Toks} (h : pArgs (f + 1) l = some (r, m)) :
    ∃ ts, l = ts ++ .op (n! ")") :: m ∧ GArgs ts r.1 r.2 := by
  unfold pArgs at h
  peel ⟨k1, rfl, h⟩ | ⟨-, h⟩ := accept_then h
  · peel ⟨rfl, rfl⟩ := pure_inv h
    exact ⟨[], rfl, .nil⟩
  peel ⟨e, k1, h1, h⟩ := bind_inv h
  peel ⟨t1, rfl, g1, -⟩ := S.expr h1
  peel ⟨k2, rfl, h⟩ | ⟨-, h⟩ := accept_then h
  · peel ⟨b, k3, h2, h⟩ := bind_inv h
    peel ⟨k4, rfl, h⟩ := expect_then h
    peel ⟨rfl, rfl⟩ := pure_inv h
    peel ⟨-, rfl⟩ | ⟨-, rfl, -⟩ := accept_inv h2
    · exact ⟨_, by simp, .dotsComma g1⟩
    · exact ⟨_, by simp, .dots g1⟩
  peel ⟨k2, rfl, h⟩ | ⟨-, h⟩ := accept_then h
  · peel ⟨r', k3, h2, h⟩ := bind_inv h
    peel ⟨rfl, rfl⟩ := pure_inv h
    peel ⟨t2, rfl, g2⟩ := S.args h2
    exact ⟨_, by simp, .cons g1 g2⟩
  · peel ⟨k2, rfl, h⟩ := expect_then h
    peel ⟨rfl, rfl⟩ := pure_inv h
    exact ⟨_, rfl, .last g1⟩

theorem pElts_sound (S : Sound f) {l : Toks} {r : Elts} {m : Toks} (h : pElts (f + 1) l = some (r, m)) :
    ∃ ts, l = ts ++ .op (n! "}") :: m ∧ GElts ts r := by
  simp only [pElts] at h
  peel ⟨k1, rfl, h⟩ | ⟨-, h⟩ := accept_then h
  · peel ⟨rfl, rfl⟩ := pure_inv h
    exact ⟨[], rfl, .nil⟩
  have rest : ∀ {ts : Toks} {x : Name × Expr} {k : Toks}, GElt ts x.1 x.2 →
      (accept (n! ",") >>= fun b => if b = true then pElts f >>= fun es => pure (Elts.cons x.1 x.2 es)
        else expect (n! "}") >>= fun _ => pure (Elts.cons x.1 x.2 .nil)) k = some (r, m) →
      ∃ us, ts ++ k = us ++ .op (n! "}") :: m ∧ GElts us r := by
    intro ts x k g h
    peel ⟨k2, rfl, h⟩ | ⟨-, h⟩ := accept_then h
    · peel ⟨es, k3, h2, h⟩ := bind_inv h
      peel ⟨rfl, rfl⟩ := pure_inv h
      peel ⟨t2, rfl, g2⟩ := S.elts h2
      exact ⟨_, by simp, .cons g g2⟩
    · peel ⟨k2, rfl, h⟩ := expect_then h
      peel ⟨rfl, rfl⟩ := pure_inv h
      exact ⟨_, rfl, .last g⟩
  peel ⟨e, k1, h1, h⟩ := bind_inv h
  peel ⟨t1, rfl, g1, -⟩ := S.expr h1
  peel ⟨k2, rfl, h⟩ | ⟨-, h⟩ := accept_then h
  · split at h
    · peel ⟨e', k3, h2, h⟩ := bind_inv h
      peel ⟨t2, rfl, g2, -⟩ := S.expr h2
      peel ⟨x, k4, h3, h⟩ := bind_inv h
      peel ⟨rfl, rfl⟩ := pure_inv h3
      obtain ⟨us, e1, g⟩ := rest (x := (_, _)) (.keyed g1 g2) h
      exact ⟨us, by rw [← e1]; simp, g⟩
    · peel ⟨_, _, h3, -⟩ := bind_inv h
      exact (fail_inv h3).elim
  · peel ⟨x, k4, h3, h⟩ := bind_inv h
    peel ⟨rfl, rfl⟩ := pure_inv h3
    exact rest (x := (0, e)) (.plain g1) h

theorem pExprs_sound (S : Sound f) {nl : Bool} {l : Toks} {r : Exprs} {m : Toks} (h : pExprs (f + 1) nl l = some (r, m)) :
    ∃ ts, l = ts ++ m ∧ GExprs nl ts r := by
  unfold pExprs at h
  peel ⟨e, k1, h1, h⟩ := bind_inv h
  peel ⟨t1, rfl, g1, -⟩ := S.expr h1
  peel ⟨k2, rfl, h⟩ | ⟨-, h⟩ := accept_then h
  · peel ⟨es, k3, h2, h⟩ := bind_inv h
    peel ⟨rfl, rfl⟩ := pure_inv h
    peel ⟨t2, rfl, g2⟩ := S.exprs h2
    exact ⟨_, by simp, .more g1 g2⟩
  · peel ⟨rfl, rfl⟩ := pure_inv h
    exact ⟨_, rfl, .one g1⟩

theorem pSimple_sound (S : Sound f) {nl : Bool} {l : Toks} {s : Stmt} {m : Toks} (h : pSimple (f + 1) nl l = some (s, m)) :
    ∃ ts, l = ts ++ m ∧ GHead nl ts s := by
  unfold pSimple at h
  peel ⟨a, k1, h1, h⟩ := bind_inv h
  peel ⟨b, k2, h2, h⟩ := bind_inv h
  peel ⟨rfl, -⟩ := isOp_inv h1
  peel ⟨rfl, -⟩ := isOp_inv h2
  split at h
  · peel ⟨rfl, rfl⟩ := pure_inv h
    exact ⟨[], rfl, .inl .skip⟩
  peel ⟨es, k1, h1, h⟩ := bind_inv h
  peel ⟨t1, rfl, g1⟩ := S.exprs h1
  peel ⟨x, k2, rfl, h⟩ := peek_then h
  cases x with
  | op o =>
    dsimp only at h
    split at h
    · rename_i hb
      obtain rfl := Nat.eq_of_beq_eq_true hb
      peel ⟨_, k3, e3, h⟩ := next_then h
      injection e3 with _ e3
      subst e3
      rcases hns : exprNames es with _ | ns
      · rw [hns] at h
        exact (fail_inv h).elim
      · rw [hns] at h
        dsimp only at h
        peel ⟨k3, rfl, h⟩ | ⟨-, h⟩ := acceptKw_then h
        · peel ⟨e, k4, h4, h⟩ := bind_inv h
          peel ⟨t2, rfl, g2, -⟩ := S.expr h4
          split at h
          · peel ⟨rfl, rfl⟩ := pure_inv h
            exact ⟨t1 ++ .op (n! ":=") :: .id (n! "range") :: t2, by simp, .inr ⟨_, _, _, rfl, by rintro rfl; exact .one g1 (exprNames_same hns) g2⟩⟩
          · peel ⟨rfl, rfl⟩ := pure_inv h
            exact ⟨t1 ++ .op (n! ":=") :: .id (n! "range") :: t2, by simp, .inr ⟨_, _, _, rfl, by rintro rfl; exact .two g1 (exprNames_same hns) g2⟩⟩
          · exact (fail_inv h).elim
        · peel ⟨rs, k4, h4, h⟩ := bind_inv h
          peel ⟨t2, rfl, g2⟩ := S.exprs h4
          peel ⟨rfl, rfl⟩ := pure_inv h
          exact ⟨_, by simp, .inl (.define g1 (exprNames_same hns) g2)⟩
    split at h
    · rename_i hb
      obtain rfl := Nat.eq_of_beq_eq_true hb
      peel ⟨_, k3, e3, h⟩ := next_then h
      injection e3 with _ e3
      subst e3
      peel ⟨rs, k4, h4, h⟩ := bind_inv h
      peel ⟨t2, rfl, g2⟩ := S.exprs h4
      peel ⟨rfl, rfl⟩ := pure_inv h
      exact ⟨_, by simp, .inl (.assign g1 g2)⟩
    cases es with
    | nil => exact (fail_inv h).elim
    | cons e es =>
      cases es with
      | cons => exact (fail_inv h).elim
      | nil =>
        have ge : GExpr nl 1 t1 e := by
          cases g1 with
          | one g => exact g
          | more _ g => cases g
        dsimp only at h
        split at h
        · rename_i hb
          obtain rfl := Nat.eq_of_beq_eq_true hb
          peel ⟨_, k3, e3, h⟩ := next_then h
          injection e3 with _ e3
          subst e3
          peel ⟨rfl, rfl⟩ := pure_inv h
          exact ⟨_, by simp, .inl (.inc ge)⟩
        split at h
        · rename_i hb
          obtain rfl := Nat.eq_of_beq_eq_true hb
          peel ⟨_, k3, e3, h⟩ := next_then h
          injection e3 with _ e3
          subst e3
          peel ⟨rfl, rfl⟩ := pure_inv h
          exact ⟨_, by simp, .inl (.dec ge)⟩
        rcases hf : find o asgOps with _ | op
        · rw [hf] at h
          peel ⟨rfl, rfl⟩ := pure_inv h
          exact ⟨_, rfl, .inl (.expr ge)⟩
        · rw [hf] at h
          peel ⟨_, k3, e3, h⟩ := next_then h
          injection e3 with _ e3
          subst e3
          peel ⟨rs, k4, h4, h⟩ := bind_inv h
          peel ⟨t2, rfl, g2, -⟩ := S.expr h4
          peel ⟨rfl, rfl⟩ := pure_inv h
          exact ⟨_, by simp, .inl (.opAssign (asgOps_same (find_mem hf)) ge g2)⟩
  | _ => exact (fail_inv h).elim

theorem pBlock_sound (S : Sound f) {l : Toks} {b : Stmts} {m : Toks} (h : pBlock (f + 1) l = some (b, m)) :
    ∃ ts, l = ts ++ m ∧ GBlock ts b := by
  unfold pBlock at h
  peel ⟨k1, rfl, h⟩ := expect_then h
  peel ⟨_, k2, h2, h⟩ := bind_inv h
  peel ⟨k3, rfl, h⟩ := expect_then h
  peel ⟨rfl, rfl⟩ := pure_inv h
  peel ⟨t1, rfl, g1⟩ := S.stmts h2
  exact ⟨_, by simp, .block g1⟩

theorem pStmts_sound (S : Sound f) {l : Toks} {b : Stmts} {m : Toks} (h : pStmts (f + 1) l = some (b, m)) :
    ∃ ts, l = ts ++ m ∧ GStmts ts b := by
  unfold pStmts at h
  peel ⟨x, k1, h1, h⟩ := bind_inv h
  peel ⟨y, k2, h2, h⟩ := bind_inv h
  peel ⟨z, k3, h3, h⟩ := bind_inv h
  peel ⟨rfl, -⟩ := isOp_inv h1
  peel ⟨rfl, -⟩ := isKw_inv h2
  peel ⟨rfl, -⟩ := isKw_inv h3
  split at h
  · peel ⟨rfl, rfl⟩ := pure_inv h
    exact ⟨[], rfl, .nil⟩
  peel ⟨k, rfl, h⟩ | ⟨-, h⟩ := accept_then h
  · peel ⟨t1, rfl, g1⟩ := S.stmts h
    exact ⟨_, rfl, .empty g1⟩
  peel ⟨s, k1, h1, h⟩ := bind_inv h
  peel ⟨t1, rfl, g1⟩ := S.stmt h1
  peel ⟨k, rfl, h⟩ | ⟨-, h⟩ := accept_then h
  · peel ⟨r, k2, h2, h⟩ := bind_inv h
    peel ⟨t2, rfl, g2⟩ := S.stmts h2
    peel ⟨rfl, rfl⟩ := pure_inv h
    exact ⟨_, by simp, .cons g1 g2⟩
  peel ⟨h, -⟩ | ⟨h, -⟩ := isOp_then h
  · peel ⟨rfl, rfl⟩ := pure_inv h
    exact ⟨_, rfl, .last g1⟩
  · simp [fail] at h

theorem noRange_inv {x s : Stmt} {l m : Toks} (h : noRange x l = some (s, m)) : s = x ∧ m = l ∧ ∀ k v e b, x ≠ .range k v e b := by
  cases x <;> first
    | (simp [noRange, oneStmt, fail] at h; done)
    | (obtain ⟨rfl, rfl⟩ := pure_inv h
       exact ⟨rfl, rfl, fun _ _ _ _ e => by cases e⟩)

theorem oneStmt_inv {x s : Stmt} {l m : Toks} (h : oneStmt x l = some (s, m)) :
    s = x ∧ m = l ∧ x ≠ .skip ∧ ∀ k v e b, x ≠ .range k v e b := by
  cases x <;> first
    | (simp [noRange, oneStmt, fail] at h; done)
    | (obtain ⟨rfl, rfl⟩ := pure_inv h
       exact ⟨rfl, rfl, fun e => (by cases e), fun _ _ _ _ e => by cases e⟩)

theorem GHead.simple {nl : Bool} {ts : Toks} {s : Stmt} (h : GHead nl ts s) (hs : ∀ k v e b, s ≠ .range k v e b) : GSimple nl ts s := by
  obtain h | ⟨k, v, e, rfl, -⟩ := h
  · exact h
  · exact (hs _ _ _ _ rfl).elim

theorem GHead.expr {nl : Bool} {ts : Toks} {e : Expr} (h : GHead nl ts (.expr e)) : GExpr nl 1 ts e := by
  obtain h | ⟨_, _, _, h, -⟩ := h
  · cases h with
    | expr h => exact h
  · cases h

theorem GHead.range {ts : Toks} {k v : Name} {e : Expr} {b : Stmts} (h : GHead true ts (.range k v e b)) : GRange ts k v e := by
  obtain h | ⟨_, _, _, h', h⟩ := h
  · cases h
  · cases h'
    exact h rfl

theorem pStmt_sound (S : Sound f) {l : Toks} {s : Stmt} {m : Toks} (h : pStmt (f + 1) l = some (s, m)) : ∃ ts, l = ts ++ m ∧ GStmt ts s := by
  simp only [pStmt] at h
  peel ⟨k, rfl, h⟩ | ⟨-, h⟩ := acceptKw_then h
  · peel ⟨a, k1, h1, h⟩ := bind_inv h
    peel ⟨b, k2, h2, h⟩ := bind_inv h
    peel ⟨rfl, -⟩ := isOp_inv h1
    peel ⟨rfl, -⟩ := isOp_inv h2
    split at h
    · peel ⟨rfl, rfl⟩ := pure_inv h
      exact ⟨[_], rfl, .ret0⟩
    · peel ⟨es, k3, h3, h⟩ := bind_inv h
      peel ⟨rfl, rfl⟩ := pure_inv h
      peel ⟨t1, rfl, g1⟩ := S.exprs h3
      exact ⟨_, rfl, .ret g1⟩
  peel ⟨k, rfl, h⟩ | ⟨-, h⟩ := acceptKw_then h
  · peel ⟨rfl, rfl⟩ := pure_inv h
    exact ⟨[_], rfl, .brk⟩
  peel ⟨k, rfl, h⟩ | ⟨-, h⟩ := acceptKw_then h
  · peel ⟨rfl, rfl⟩ := pure_inv h
    exact ⟨[_], rfl, .cont⟩
  peel ⟨k, rfl, h⟩ | ⟨-, h⟩ := acceptKw_then h
  · peel ⟨t1, rfl, g1⟩ := S.ifs h
    exact ⟨_, rfl, .ifs g1⟩
  peel ⟨k, rfl, h⟩ | ⟨-, h⟩ := acceptKw_then h
  · peel ⟨h, -⟩ | ⟨h, -⟩ := isOp_then h
    · peel ⟨b, k1, h1, h⟩ := bind_inv h
      peel ⟨rfl, rfl⟩ := pure_inv h
      peel ⟨t1, rfl, g1⟩ := S.block h1
      exact ⟨_, rfl, .forever g1⟩
    · peel ⟨s0, k1, h1, h⟩ := bind_inv h
      peel ⟨t1, rfl, g1⟩ := S.simple h1
      peel ⟨k2, rfl, h⟩ | ⟨-, h⟩ := accept_then h
      · peel ⟨s1, k3, h3, h⟩ := bind_inv h
        peel ⟨rfl, rfl, hr⟩ := noRange_inv h3
        have rest : ∀ {us : Toks} {c : Expr} {k0 : Toks}, GCond us c →
            (expect (n! ";") >>= fun _ => pSimple f true >>= fun p => noRange p >>= fun p => pBlock f >>= fun b => pure (Stmt.for s1 c p b)) k0 =
              some (s, m) → ∃ ts, .id (n! "for") :: t1 ++ .op (n! ";") :: us ++ k0 = ts ++ m ∧ GStmt ts s := by
          clear h
          intro us c k0 gc h
          peel ⟨k4, rfl, h⟩ := expect_then h
          peel ⟨p, k5, h5, h⟩ := bind_inv h
          peel ⟨p', k6, h6, h⟩ := bind_inv h
          peel ⟨rfl, rfl, hr'⟩ := noRange_inv h6
          peel ⟨b, k7, h7, h⟩ := bind_inv h
          peel ⟨rfl, rfl⟩ := pure_inv h
          peel ⟨t2, rfl, g2⟩ := S.simple h5
          peel ⟨t3, rfl, g3⟩ := S.block h7
          exact ⟨_, by simp, .for (g1.simple hr) gc (g2.simple hr') g3⟩
        peel ⟨h, -⟩ | ⟨h, -⟩ := isOp_then h
        · peel ⟨c, k3, h3, h⟩ := bind_inv h
          peel ⟨rfl, rfl⟩ := pure_inv h3
          obtain ⟨ts, e1, g⟩ := rest .none h
          exact ⟨ts, by rw [← e1]; simp, g⟩
        · peel ⟨c, k3, h3, h⟩ := bind_inv h
          peel ⟨t2, rfl, g2, -⟩ := S.expr h3
          obtain ⟨ts, e1, g⟩ := rest (.some g2) h
          exact ⟨ts, by rw [← e1]; simp, g⟩
      · peel ⟨b, k2, h2, h⟩ := bind_inv h
        peel ⟨t2, rfl, g2⟩ := S.block h2
        cases s0 with
        | range k v e b' =>
          peel ⟨rfl, rfl⟩ := pure_inv h
          exact ⟨_, by simp, .range g1.range g2⟩
        | expr e =>
          peel ⟨rfl, rfl⟩ := pure_inv h
          exact ⟨_, by simp, .while g1.expr g2⟩
        | _ => exact (fail_inv h).elim
  peel ⟨k, rfl, h⟩ | ⟨-, h⟩ := acceptKw_then h
  · peel ⟨h, -⟩ | ⟨h, -⟩ := isOp_then h
    · peel ⟨tag, k1, h1, h⟩ := bind_inv h
      peel ⟨rfl, rfl⟩ := pure_inv h1
      peel ⟨k2, rfl, h⟩ := expect_then h
      peel ⟨cs, k3, h3, h⟩ := bind_inv h
      peel ⟨rfl, rfl⟩ := pure_inv h
      peel ⟨t1, rfl, g1⟩ := S.cases h3
      exact ⟨_, by simp, .switch0 g1⟩
    · peel ⟨tag, k1, h1, h⟩ := bind_inv h
      peel ⟨t1, rfl, g1, -⟩ := S.expr h1
      peel ⟨k2, rfl, h⟩ := expect_then h
      peel ⟨cs, k3, h3, h⟩ := bind_inv h
      peel ⟨rfl, rfl⟩ := pure_inv h
      peel ⟨t2, rfl, g2⟩ := S.cases h3
      exact ⟨_, by simp, .switch g1 g2⟩
  peel ⟨k, rfl, h⟩ | ⟨-, h⟩ := acceptKw_then h
  · peel ⟨n, k1, rfl, hn, h⟩ := ident_then h
    peel ⟨ns, k2, h2, h⟩ := bind_inv h
    obtain ⟨t1, e1, g1⟩ := moreNames_sound h2 n hn
    rw [e1]
    clear h2 e1
    peel ⟨h, k3, rfl⟩ | ⟨h, -⟩ := isOp_then h
    · peel ⟨t, k4, h4, h⟩ := bind_inv h
      peel ⟨rfl, rfl⟩ := pure_inv h4
      peel ⟨k5, e5, h⟩ | ⟨hne, -⟩ := accept_then h
      · injection e5 with _ e5
        subst e5
        peel ⟨es, k6, h6, h⟩ := bind_inv h
        peel ⟨rfl, rfl⟩ := pure_inv h
        peel ⟨t2, rfl, g2⟩ := S.exprs h6
        exact ⟨_, by simp, .varVal g1 g2⟩
      · exact (hne _ rfl).elim
    · peel ⟨t, k4, h4, h⟩ := bind_inv h
      peel ⟨t2, rfl, g2⟩ := S.type h4
      peel ⟨k5, rfl, h⟩ | ⟨-, h⟩ := accept_then h
      · peel ⟨es, k6, h6, h⟩ := bind_inv h
        peel ⟨rfl, rfl⟩ := pure_inv h
        peel ⟨t3, rfl, g3⟩ := S.exprs h6
        exact ⟨_, by simp, .varTyVal g1 g2 g3⟩
      · peel ⟨rfl, rfl⟩ := pure_inv h
        exact ⟨_, by simp, .varTy g1 g2⟩
  peel ⟨k, rfl, h⟩ | ⟨-, h⟩ := acceptKw_then h
  · peel ⟨n, k1, rfl, hn, h⟩ := ident_then h
    peel ⟨k2, rfl, h⟩ := expect_then h
    peel ⟨e, k3, h3, h⟩ := bind_inv h
    peel ⟨rfl, rfl⟩ := pure_inv h
    peel ⟨t1, rfl, g1, -⟩ := S.expr h3
    exact ⟨_, by simp, .const hn g1⟩
  peel ⟨h, -⟩ | ⟨h, -⟩ := isOp_then h
  · peel ⟨b, k1, h1, h⟩ := bind_inv h
    peel ⟨rfl, rfl⟩ := pure_inv h
    peel ⟨t1, rfl, g1⟩ := S.block h1
    exact ⟨_, rfl, .block g1⟩
  · peel ⟨s0, k1, h1, h⟩ := bind_inv h
    peel ⟨t1, rfl, g1⟩ := S.simple h1
    peel ⟨rfl, rfl, hs, hr⟩ := oneStmt_inv h
    exact ⟨_, rfl, .simple (g1.simple hr) hs⟩

theorem pIf_sound (S : Sound f) {l : Toks} {s : Stmt} {m : Toks} (h : pIf (f + 1) l = some (s, m)) : ∃ ts, l = ts ++ m ∧ GIf ts s := by
  simp only [pIf] at h
  peel ⟨s0, k1, h1, h⟩ := bind_inv h
  peel ⟨t1, rfl, g1⟩ := S.simple h1
  have rest : ∀ {x : Stmt × Expr} {k : Toks},
      (pBlock f >>= fun th => acceptKw (n! "else") >>= fun b => if b = true then
        (acceptKw (n! "if") >>= fun b => if b = true then pIf f >>= fun s => pure (Stmt.ifs x.1 x.2 th (.cons s .nil))
          else pBlock f >>= fun el => pure (Stmt.ifs x.1 x.2 th el))
        else pure (Stmt.ifs x.1 x.2 th .nil)) k = some (s, m) →
      ∃ ts us th el, k = ts ++ us ++ m ∧ GBlock ts th ∧ GElse us el ∧ s = .ifs x.1 x.2 th el := by
    clear h
    intro x k h
    peel ⟨th, k2, h2, h⟩ := bind_inv h
    peel ⟨t2, rfl, g2⟩ := S.block h2
    peel ⟨k3, rfl, h⟩ | ⟨-, h⟩ := acceptKw_then h
    · peel ⟨k3, rfl, h⟩ | ⟨-, h⟩ := acceptKw_then h
      · peel ⟨s', k4, h4, h⟩ := bind_inv h
        peel ⟨rfl, rfl⟩ := pure_inv h
        peel ⟨t3, rfl, g3⟩ := S.ifs h4
        exact ⟨_, _, _, _, by simp, g2, .ifs g3, rfl⟩
      · peel ⟨s', k4, h4, h⟩ := bind_inv h
        peel ⟨rfl, rfl⟩ := pure_inv h
        peel ⟨t3, rfl, g3⟩ := S.block h4
        exact ⟨_, _, _, _, by simp, g2, .block g3, rfl⟩
    · peel ⟨rfl, rfl⟩ := pure_inv h
      exact ⟨_, [], _, _, by simp, g2, .none, rfl⟩
  peel ⟨k2, rfl, h⟩ | ⟨-, h⟩ := accept_then h
  · peel ⟨s1, k3, h3, h⟩ := bind_inv h
    peel ⟨rfl, rfl, hr⟩ := noRange_inv h3
    peel ⟨c, k4, h4, h⟩ := bind_inv h
    peel ⟨t2, rfl, g2, -⟩ := S.expr h4
    peel ⟨x, k5, h5, h⟩ := bind_inv h
    peel ⟨rfl, rfl⟩ := pure_inv h5
    peel ⟨ts, us, th, el, rfl, g3, g4, rfl⟩ := rest h
    exact ⟨_, by simp, .init (g1.simple hr) g2 g3 g4⟩
  · cases s0 with
    | expr e =>
      peel ⟨x, k5, h5, h⟩ := bind_inv h
      peel ⟨rfl, rfl⟩ := pure_inv h5
      peel ⟨ts, us, th, el, rfl, g3, g4, rfl⟩ := rest h
      exact ⟨_, by simp, .cond g1.expr g3 g4⟩
    | _ =>
      peel ⟨_, _, h5, -⟩ := bind_inv h
      exact (fail_inv h5).elim

theorem pCases_sound (S : Sound f) {l : Toks} {r : Cases} {m : Toks} (h : pCases (f + 1) l = some (r, m)) :
    ∃ ts, l = ts ++ .op (n! "}") :: m ∧ GCases ts r := by
  unfold pCases at h
  peel ⟨k, rfl, h⟩ | ⟨-, h⟩ := accept_then h
  · peel ⟨rfl, rfl⟩ := pure_inv h
    exact ⟨[], rfl, .nil⟩
  peel ⟨k, rfl, h⟩ | ⟨-, h⟩ := acceptKw_then h
  · peel ⟨es, k1, h1, h⟩ := bind_inv h
    peel ⟨k2, rfl, h⟩ := expect_then h
    peel ⟨b, k3, h3, h⟩ := bind_inv h
    peel ⟨cs, k4, h4, h⟩ := bind_inv h
    peel ⟨rfl, rfl⟩ := pure_inv h
    peel ⟨t1, rfl, g1⟩ := S.exprs h1
    peel ⟨t2, rfl, g2⟩ := S.stmts h3
    peel ⟨t3, rfl, g3⟩ := S.cases h4
    exact ⟨_, by simp, .case g1 g2 g3⟩
  peel ⟨k, rfl, h⟩ | ⟨-, h⟩ := acceptKw_then h
  · peel ⟨k2, rfl, h⟩ := expect_then h
    peel ⟨b, k3, h3, h⟩ := bind_inv h
    peel ⟨cs, k4, h4, h⟩ := bind_inv h
    peel ⟨rfl, rfl⟩ := pure_inv h
    peel ⟨t2, rfl, g2⟩ := S.stmts h3
    peel ⟨t3, rfl, g3⟩ := S.cases h4
    exact ⟨_, by simp, .default g2 g3⟩
  · exact (fail_inv h).elim

theorem sound : ∀ f : Nat, Sound f
  | 0 => sound_zero
  | f + 1 =>
    { type := pType_sound (sound f)
      fields := pFields_sound (sound f)
      params := pParams_sound (sound f)
      paramList := pParamList_sound (sound f)
      results := pResults_sound (sound f)
      expr := pExpr_sound (sound f)
      bin := pBin_sound (sound f)
      unary := pUnary_sound (sound f)
      operand := pOperand_sound (sound f)
      suffix := pSuffix_sound (sound f)
      args := pArgs_sound (sound f)
      elts := pElts_sound (sound f)
      exprs := pExprs_sound (sound f)
      simple := pSimple_sound (sound f)
      block := pBlock_sound (sound f)
      stmts := pStmts_sound (sound f)
      stmt := pStmt_sound (sound f)
      ifs := pIf_sound (sound f)
      cases := pCases_sound (sound f) }

/-! ## Declarations and files -/

theorem go_sound {α : Type} {p : P α} {G : Toks → α → Prop} (hp : ∀ {l a m}, p l = some (a, m) → ∃ ts, l = ts ++ m ∧ G ts a) :
    ∀ {f : Nat} {l : Toks} {r : List α} {m : Toks}, pGroup.go p f l = some (r, m) → ∃ ts, l = ts ++ .op (n! ")") :: m ∧ GSpecs G ts r
  | 0, _, _, _, h => (fail_inv h).elim
  | f + 1, l, r, m, h => by
    unfold pGroup.go at h
    peel ⟨k, rfl, h⟩ | ⟨-, h⟩ := accept_then h
    · peel ⟨rfl, rfl⟩ := pure_inv h
      exact ⟨[], rfl, .nil⟩
    peel ⟨a, k1, h1, h⟩ := bind_inv h
    peel ⟨t1, rfl, g1⟩ := hp h1
    peel ⟨k, rfl, h⟩ | ⟨-, h⟩ := accept_then h
    · peel ⟨r', k2, h2, h⟩ := bind_inv h
      peel ⟨rfl, rfl⟩ := pure_inv h
      obtain ⟨t2, rfl, g2⟩ := go_sound hp h2
      exact ⟨_, by simp, .cons g1 g2⟩
    · peel ⟨k2, rfl, h⟩ := expect_then h
      peel ⟨rfl, rfl⟩ := pure_inv h
      exact ⟨_, rfl, .last g1⟩

theorem pGroup_sound {α : Type} {p : P α} {G : Toks → α → Prop} (hp : ∀ {l a m}, p l = some (a, m) → ∃ ts, l = ts ++ m ∧ G ts a)
    {f : Nat} {l : Toks} {r : List α} {m : Toks} (h : pGroup f p l = some (r, m)) : ∃ ts, l = ts ++ m ∧ GGroup G ts r := by
  unfold pGroup at h
  peel ⟨k, rfl, h⟩ | ⟨-, h⟩ := accept_then h
  · obtain ⟨t1, rfl, g1⟩ := go_sound hp h
    exact ⟨_, by simp, .group g1⟩
  · peel ⟨a, k1, h1, h⟩ := bind_inv h
    peel ⟨rfl, rfl⟩ := pure_inv h
    peel ⟨t1, rfl, g1⟩ := hp h1
    exact ⟨_, rfl, .one g1⟩

theorem pImport_sound {l : Toks} {r : List Nat} {m : Toks} (h : pImport l = some (r, m)) : ∃ ts, l = ts ++ m ∧ GImport ts r := by
  unfold pImport at h
  peel ⟨x, k, rfl, h⟩ := next_then h
  cases x with
  | str s =>
    peel ⟨rfl, rfl⟩ := pure_inv h
    exact ⟨[_], rfl, .path⟩
  | _ => exact (fail_inv h).elim

theorem pConst_sound {l : Toks} {r : Decl} {m : Toks} (h : pConst f l = some (r, m)) : ∃ ts, l = ts ++ m ∧ GConst ts r := by
  unfold pConst at h
  peel ⟨n, k1, rfl, hn, h⟩ := ident_then h
  peel ⟨k2, rfl, h⟩ := expect_then h
  peel ⟨e, k3, h3, h⟩ := bind_inv h
  peel ⟨rfl, rfl⟩ := pure_inv h
  obtain ⟨t1, rfl, g1, -⟩ := (sound f).expr h3
  exact ⟨_, by simp, .const hn g1⟩

theorem pVar_sound {l : Toks} {r : Decl} {m : Toks} (h : pVar f l = some (r, m)) : ∃ ts, l = ts ++ m ∧ GVar ts r := by
  simp only [pVar] at h
  peel ⟨n, k1, rfl, hn, h⟩ := ident_then h
  peel ⟨h, k3, rfl⟩ | ⟨h, -⟩ := isOp_then h
  · peel ⟨t, k4, h4, h⟩ := bind_inv h
    peel ⟨rfl, rfl⟩ := pure_inv h4
    peel ⟨k5, e5, h⟩ | ⟨hne, -⟩ := accept_then h
    · injection e5 with _ e5
      subst e5
      peel ⟨e, k6, h6, h⟩ := bind_inv h
      peel ⟨rfl, rfl⟩ := pure_inv h
      obtain ⟨t2, rfl, g2, -⟩ := (sound f).expr h6
      exact ⟨_, by simp, .val hn g2⟩
    · exact (hne _ rfl).elim
  · peel ⟨t, k4, h4, h⟩ := bind_inv h
    obtain ⟨t2, rfl, g2⟩ := (sound f).type h4
    clear h4
    peel ⟨k5, rfl, h⟩ | ⟨-, h⟩ := accept_then h
    · peel ⟨e, k6, h6, h⟩ := bind_inv h
      peel ⟨rfl, rfl⟩ := pure_inv h
      obtain ⟨t3, rfl, g3, -⟩ := (sound f).expr h6
      exact ⟨_, by simp, .tyVal hn g2 g3⟩
    · peel ⟨rfl, rfl⟩ := pure_inv h
      exact ⟨_, by simp, .ty hn g2⟩

theorem pFunc_sound {l : Toks} {r : Decl} {m : Toks} (h : pFunc f l = some (r, m)) : ∃ ts, l = ts ++ m ∧ GFunc ts r := by
  unfold pFunc at h
  peel ⟨k, rfl, h⟩ | ⟨-, h⟩ := accept_then h
  · peel ⟨x, k1, rfl, hx, h⟩ := ident_then h
    peel ⟨b, k2, h2, h⟩ := bind_inv h
    peel ⟨t, k3, rfl, ht, h⟩ := ident_then h
    peel ⟨k4, rfl, h⟩ := expect_then h
    peel ⟨n, k5, rfl, hn, h⟩ := ident_then h
    peel ⟨ps, k6, h6, h⟩ := bind_inv h
    peel ⟨rs, k7, h7, h⟩ := bind_inv h
    peel ⟨bd, k8, h8, h⟩ := bind_inv h
    peel ⟨rfl, rfl⟩ := pure_inv h
    obtain ⟨t1, rfl, g1⟩ := (sound f).params h6
    obtain ⟨t2, rfl, g2⟩ := (sound f).results h7
    obtain ⟨t3, rfl, g3⟩ := (sound f).block h8
    obtain ⟨rfl, rfl⟩ | ⟨rfl, e, -⟩ := accept_inv h2
    · exact ⟨_, by simp, .byPointer hx ht hn g1 g2 g3⟩
    · rw [← e]
      exact ⟨_, by simp, .byValue hx ht hn g1 g2 g3⟩
  · peel ⟨n, k5, rfl, hn, h⟩ := ident_then h
    peel ⟨ps, k6, h6, h⟩ := bind_inv h
    peel ⟨rs, k7, h7, h⟩ := bind_inv h
    peel ⟨bd, k8, h8, h⟩ := bind_inv h
    peel ⟨rfl, rfl⟩ := pure_inv h
    obtain ⟨t1, rfl, g1⟩ := (sound f).params h6
    obtain ⟨t2, rfl, g2⟩ := (sound f).results h7
    obtain ⟨t3, rfl, g3⟩ := (sound f).block h8
    exact ⟨_, by simp, .func hn g1 g2 g3⟩

theorem pDecls_sound : ∀ {k : Nat} {l : Toks} {r : List Decl} {m : Toks}, pDecls f k l = some (r, m) → m = [] ∧ GDecls l r
  | 0, _, _, _, h => (fail_inv h).elim
  | k + 1, [], r, m, h => by
    cases h
    exact ⟨rfl, .nil⟩
  | k + 1, x :: l, r, m, h => by
    unfold pDecls at h
    dsimp only at h
    generalize x :: l = l at h ⊢
    peel ⟨k1, rfl, h⟩ | ⟨-, h⟩ := acceptKw_then h
    · peel ⟨d, k2, h2, h⟩ := bind_inv h
      peel ⟨k3, rfl, h⟩ := expect_then h
      peel ⟨ds, k4, h4, h⟩ := bind_inv h
      peel ⟨rfl, rfl⟩ := pure_inv h
      peel ⟨t1, rfl, g1⟩ := pFunc_sound h2
      obtain ⟨rfl, g2⟩ := pDecls_sound h4
      exact ⟨rfl, by simpa using GDecls.cons (.func g1) g2⟩
    peel ⟨k1, rfl, h⟩ | ⟨-, h⟩ := acceptKw_then h
    · peel ⟨n, k2, rfl, hn, h⟩ := ident_then h
      peel ⟨t, k3, h3, h⟩ := bind_inv h
      peel ⟨k4, rfl, h⟩ := expect_then h
      peel ⟨ds, k5, h5, h⟩ := bind_inv h
      peel ⟨rfl, rfl⟩ := pure_inv h
      obtain ⟨t1, rfl, g1⟩ := (sound f).type h3
      obtain ⟨rfl, g2⟩ := pDecls_sound h5
      exact ⟨rfl, by simpa using GDecls.cons (.type hn g1) g2⟩
    peel ⟨k1, rfl, h⟩ | ⟨-, h⟩ := acceptKw_then h
    · peel ⟨cs, k3, h3, h⟩ := bind_inv h
      peel ⟨k4, rfl, h⟩ := expect_then h
      peel ⟨ds, k5, h5, h⟩ := bind_inv h
      peel ⟨rfl, rfl⟩ := pure_inv h
      obtain ⟨t1, rfl, g1⟩ := pGroup_sound pConst_sound h3
      obtain ⟨rfl, g2⟩ := pDecls_sound h5
      exact ⟨rfl, by simpa using GDecls.cons (.const g1) g2⟩
    peel ⟨k1, rfl, h⟩ | ⟨-, h⟩ := acceptKw_then h
    · peel ⟨cs, k3, h3, h⟩ := bind_inv h
      peel ⟨k4, rfl, h⟩ := expect_then h
      peel ⟨ds, k5, h5, h⟩ := bind_inv h
      peel ⟨rfl, rfl⟩ := pure_inv h
      obtain ⟨t1, rfl, g1⟩ := pGroup_sound pVar_sound h3
      obtain ⟨rfl, g2⟩ := pDecls_sound h5
      exact ⟨rfl, by simpa using GDecls.cons (.var g1) g2⟩
    · exact (fail_inv h).elim

theorem pImports_sound : ∀ {k : Nat} {l : Toks} {r : List (List Nat)} {m : Toks}, pImports f k l = some (r, m) →
    ∃ ts, l = ts ++ m ∧ GImports ts r
  | 0, _, _, _, h => (fail_inv h).elim
  | k + 1, l, r, m, h => by
    unfold pImports at h
    peel ⟨k1, rfl, h⟩ | ⟨-, h⟩ := acceptKw_then h
    · peel ⟨is, k3, h3, h⟩ := bind_inv h
      peel ⟨k4, rfl, h⟩ := expect_then h
      peel ⟨ds, k5, h5, h⟩ := bind_inv h
      peel ⟨rfl, rfl⟩ := pure_inv h
      obtain ⟨t1, rfl, g1⟩ := pGroup_sound pImport_sound h3
      obtain ⟨t2, rfl, g2⟩ := pImports_sound h5
      exact ⟨_, by simp, .cons g1 g2⟩
    · peel ⟨rfl, rfl⟩ := pure_inv h
      exact ⟨[], rfl, .nil⟩

theorem pFile_sound {l : Toks} {r : File} {m : Toks} (h : pFile f l = some (r, m)) : m = [] ∧ GFile l r := by
  unfold pFile at h
  peel ⟨k1, rfl, h⟩ | ⟨-, h⟩ := acceptKw_then h
  · peel ⟨n, k2, rfl, hn, h⟩ := ident_then h
    peel ⟨k3, rfl, h⟩ := expect_then h
    peel ⟨is, k4, h4, h⟩ := bind_inv h
    peel ⟨ds, k5, h5, h⟩ := bind_inv h
    peel ⟨rfl, rfl⟩ := pure_inv h
    obtain ⟨t1, rfl, g1⟩ := pImports_sound h4
    obtain ⟨rfl, g2⟩ := pDecls_sound h5
    exact ⟨rfl, .file hn g1 g2⟩
  · exact (fail_inv h).elim

end GoLang
