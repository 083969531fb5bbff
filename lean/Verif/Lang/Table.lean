import Verif.Lang.Parser
import Verif.Lang.Rules

/-!
# Long tables of numbers

The parser and the evaluator on composite literals of numbers of any length.
-/
namespace GoLang

/-- The tokens of numbers, each with a comma after it. -/
def commas : List Nat → List Tok
  | [] => []
  | n :: l => .int n :: .op (n! ",") :: commas l

/-- Elements that are numbers, before others. -/
def ofInts : List Nat → Elts → Elts
  | [], r => r
  | n :: l, r => .cons 0 (.int n) (ofInts l r)

theorem commas_append (a b : List Nat) : commas (a ++ b) = commas a ++ commas b := by
  induction a with
  | nil => rfl
  | cons n a ih => simp only [List.cons_append, commas, ih]

theorem length_commas (a : List Nat) : (commas a).length = 2 * a.length := by
  induction a with
  | nil => rfl
  | cons n a ih => simp only [commas, List.length_cons, ih]; omega

/-- The tokens of a text are those of its parts. -/
theorem lex_append {a b : List String} {s t : List Tok} (ha : lex a = some s) (hb : lex b = some t) : lex (a ++ b) = some (s ++ t) := by
  induction a generalizing s with
  | nil => simp only [lex, Option.some.injEq] at ha; subst ha; exact hb
  | cons x a ih =>
    simp only [lex] at ha
    split at ha
    · rename_i u v hu hv
      simp only [Option.some.injEq] at ha
      simp only [List.cons_append, lex, hu, ih hv, ← ha, List.append_assoc]
    · cases ha

theorem pElts_int (f n : Nat) (l : List Tok) : pElts (f + 5) (.int n :: .op (n! ",") :: l) = (pElts (f + 4) l).map fun p => (.cons 0 (.int n) p.1, p.2) := by
  have h : pElts (f + 5) (.int n :: .op (n! ",") :: l) =
      (match pElts (f + 4) l with | some (es, l) => some (.cons 0 (.int n) es, l) | none => none) := by kernel_rfl
  rw [h]
  cases pElts (f + 4) l <;> rfl

theorem pElts_ints (f : Nat) (ns : List Nat) (l : List Tok) :
    pElts (f + 4 + ns.length) (commas ns ++ l) = (pElts (f + 4) l).map fun p => (ofInts ns p.1, p.2) := by
  induction ns generalizing f with
  | nil => simp [commas, ofInts]
  | cons n ns ih =>
    have h : f + 4 + (n :: ns).length = (f + ns.length) + 5 := by simp only [List.length_cons]; omega
    rw [h]
    simp only [commas, List.cons_append]
    rw [pElts_int, show f + ns.length + 4 = f + 4 + ns.length by omega, ih, Option.map_map]
    rfl

/-- The values of the elements. -/
theorem evalElts_ints (c : Ctx) (ns : List Nat) (s : St) :
    evalElts c (ofInts ns .nil) s = .ok (ns.map fun (n : Nat) => (0, .const n)) s := by
  induction ns with
  | nil => rfl
  | cons n ns ih =>
    simp only [ofInts, List.map_cons]
    eval_go [↓ih]

theorem coerceElems_u64 (c : Ctx) (hu : ∀ (n : Nat) s, n < 2 ^ 64 → coerce c (.name (n! "uint64")) (.const n) s = .ok (.u64 (.ofNat 64 n)) s)
    (ns : List Nat) (h : ∀ n ∈ ns, n < 2 ^ 64) (s : St) :
    coerceElems c (.name (n! "uint64")) (ns.map fun (n : Nat) => (0, .const n)) s = .ok (ns.map fun n => .u64 (.ofNat 64 n)) s := by
  induction ns with
  | nil => rfl
  | cons n ns ih =>
    have h1 := hu n s (h n (List.mem_cons_self ..))
    have h2 := ih fun m hm => h m (List.mem_cons_of_mem _ hm)
    simp only [List.map_cons]
    eval_go [↓h1, ↓h2]

end GoLang
