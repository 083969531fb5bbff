import Verif.Props.HexOrder
import Verif.Props.SourceHex

/-!
# The source text of package `hex` between two programs

C119: one program writes bytes as hexadecimal text, another reads it. Both have the text of package `hex`, each in a build of its own, and may
differ in everything else, also in the size of `int` and in what is in memory.
-/
namespace Source
open GoLang HexSpec

/-- The program has package `hex` in that build, and `int` has at least 32 bits. -/
structure HexIn (P : Prog) (bd : _root_.Hex.Build) : Prop where
  text : P.Has Hex.path (Hex.texts bd) []
  word : 32 ≤ P.W

/-- The error of a text of digits only. -/
abbrev lengthErr : Val := .err (ascii "hex string must be composed of pairs of hex values")

/-- The error of a text without value: it names the first character that is no digit, and if there is none, it is about the length. -/
def errOf : List U8 → Nat → Val
  | [], _ => lengthErr
  | c :: s, i => if IsHex c then errOf s (i + 1) else invalidAt c i

theorem errOf_ne : ∀ (s : List U8) (i : Nat), errOf s i ≠ .nil
  | [], _ => by simp [errOf]
  | c :: s, i => by
    rw [errOf]
    split
    · exact errOf_ne s (i + 1)
    · simp

theorem errOf_prefix : ∀ (pre : List U8) (s : List U8) (i : Nat), (∀ x ∈ pre, IsHex x) → errOf (pre ++ s) i = errOf s (i + pre.length)
  | [], _, _, _ => by simp
  | x :: pre, s, i, h => by
    rw [List.cons_append, errOf, if_pos (h x (by simp)), errOf_prefix pre s (i + 1) fun y hy => h y (List.mem_cons_of_mem _ hy), List.length_cons,
      show i + 1 + pre.length = i + (pre.length + 1) by omega]

/-- A text has a value, or a first character that is no digit, or an odd number of digits. -/
theorem hex_cases (s : List U8) : (∃ b, HexSpec.decode s = some b) ∨ (∃ pre c post, s = pre ++ c :: post ∧ (∀ x ∈ pre, IsHex x) ∧ ¬ IsHex c) ∨
    (∀ x ∈ s, IsHex x) ∧ s.length % 2 = 1 := by
  by_cases h : ∀ x ∈ s, IsHex x
  · by_cases ho : s.length % 2 = 0
    · exact .inl ((_root_.Hex.decode_isSome_iff s).mpr ⟨ho, h⟩)
    · exact .inr (.inr ⟨h, by omega⟩)
  · refine .inr (.inl ?_)
    induction s with
    | nil => simp at h
    | cons x s ih =>
      by_cases hx : IsHex x
      · obtain ⟨pre, c, post, e, h1, h2⟩ := ih fun h' => h fun y hy => by
          rcases List.mem_cons.mp hy with rfl | hy
          · exact hx
          · exact h' y hy
        exact ⟨x :: pre, c, post, by rw [e]; rfl, fun y hy => by
          rcases List.mem_cons.mp hy with rfl | hy
          · exact hx
          · exact h1 y hy, h2⟩
      · exact ⟨[], x, s, rfl, by simp, hx⟩

theorem hex_length (b : List U8) : (encode b).length = b.length * 2 := by
  induction b with
  | nil => rfl
  | cons x b ih => simp [encode] at ih ⊢; omega

theorem decode_bad {pre : List U8} {c : U8} {post : List U8} (hc : ¬ IsHex c) : HexSpec.decode (pre ++ c :: post) = none := by
  cases h : HexSpec.decode (pre ++ c :: post) with
  | none => rfl
  | some b => exact absurd (((_root_.Hex.decode_isSome_iff _).mp ⟨b, h⟩).2 c (by simp)) hc

theorem whole_bytes (h : List Val) (b : List U8) : HasBytes (h ++ [.arr (b.map .u8)]) (.slice h.length [] 0 b.length b.length) b :=
  IsBytes.has (.inr ⟨_, [], 0, b.length, _, _, rfl, List.getElem?_concat_length, rfl, by simp, by simp, by
    rw [List.drop_zero, List.take_of_length_le (by simp)]⟩)

/-- What both functions do with a text: the value in a new slice, or nothing and the error. -/
def HexReads (P : Prog) (s : List U8) (h : List Val) : Prop :=
  match HexSpec.decode s with
  | some b => Returns P Hex.path 0 (n! "ToBytes") [.str s] h [.slice h.length [] 0 b.length b.length, .nil] (h ++ [.arr (b.map .u8)]) ∧
      Returns P Hex.path 0 (n! "ToBytesFast") [.str s] h [.slice h.length [] 0 b.length b.length] (h ++ [.arr (b.map .u8)])
  | none => (∃ x : List U8, x.length = s.length / 2 ∧ Returns P Hex.path 0 (n! "ToBytes") [.str s] h [.nil, errOf s 0] (h ++ [.arr (x.map .u8)])) ∧
      ∃ x : List U8, x.length = s.length / 2 ∧ Returns P Hex.path 0 (n! "ToBytesFast") [.str s] h [.nil] (h ++ [.arr (x.map .u8)])

theorem hex_reads {P : Prog} {bd : _root_.Hex.Build} (hP : HexIn P bd) (s : List U8) (h : List Val) (hl : Fits P (s.length + 1)) : HexReads P s h := by
  rcases hex_cases s with ⟨b, e⟩ | ⟨pre, c, post, rfl, h1, h2⟩ | ⟨h1, h2⟩
  · rw [HexReads, e]
    exact C89_decode P bd hP.text hP.word h s b e hl
  · obtain ⟨⟨_, r1, x, hx, rfl⟩, _, r2, y, hy, rfl⟩ := C89_invalid P bd hP.text hP.word h pre c post h1 h2 hl
    rw [HexReads, decode_bad h2]
    refine ⟨⟨x, hx, ?_⟩, y, hy, r2⟩
    rw [errOf_prefix pre _ 0 h1, errOf, if_neg h2, Nat.zero_add]
    exact r1
  · obtain ⟨⟨_, r1, x, hx, rfl⟩, _, r2, y, hy, rfl⟩ := C89_odd P bd hP.text hP.word h s h1 h2 hl
    have e : HexSpec.decode s = none := by
      cases h : HexSpec.decode s with
      | none => rfl
      | some b =>
        have := ((_root_.Hex.decode_isSome_iff _).mp ⟨b, h⟩).1
        omega
    rw [HexReads, e]
    refine ⟨⟨x, hx, ?_⟩, y, hy, r2⟩
    have := errOf_prefix s [] 0 h1
    rw [List.append_nil] at this
    rw [this]
    exact r1

/-- What a run of `ToBytes` that returns has returned. -/
theorem read_of {P : Prog} {bd : _root_.Hex.Build} (hP : HexIn P bd) {s : List U8} {h h' r : List Val} (hl : Fits P (s.length + 1))
    (hr : Returns P Hex.path 0 (n! "ToBytes") [.str s] h r h') :
    (∃ b, HexSpec.decode s = some b ∧ r = [.slice h.length [] 0 b.length b.length, .nil] ∧ h' = h ++ [.arr (b.map .u8)]) ∨
    HexSpec.decode s = none ∧ r = [.nil, errOf s 0] := by
  have hR := hex_reads hP s h hl
  unfold HexReads at hR
  cases e : HexSpec.decode s with
  | some b =>
    rw [e] at hR
    obtain ⟨e1, e2⟩ := hr.unique hR.1
    exact .inl ⟨b, rfl, e1, e2⟩
  | none =>
    rw [e] at hR
    obtain ⟨⟨x, -, r1⟩, -⟩ := hR
    exact .inr ⟨rfl, (hr.unique r1).1⟩

/-! ## The claims -/

/-- **C119** Both functions return for every text, and add one array to memory. Either `ToBytes` returns a slice of half as many bytes as the
text has characters, and no error, and `ToBytesFast` the same slice; or both return nil, and `ToBytes` an error. -/
theorem C119_total (P : Prog) (bd : _root_.Hex.Build) (hP : HexIn P bd) (h : List Val) (s : List U8) (hl : Fits P (s.length + 1)) :
    ∃ r e x y, Returns P Hex.path 0 (n! "ToBytes") [.str s] h [r, e] (h ++ [.arr x]) ∧ Returns P Hex.path 0 (n! "ToBytesFast") [.str s] h [r] (h ++ [.arr y]) ∧
      ((e = .nil ∧ x = y ∧ ∃ b, b.length * 2 = s.length ∧ HasBytes (h ++ [.arr x]) r b) ∨ (e ≠ .nil ∧ r = .nil)) := by
  have hR := hex_reads hP s h hl
  unfold HexReads at hR
  cases e : HexSpec.decode s with
  | some b =>
    rw [e] at hR
    refine ⟨_, _, _, _, hR.1, hR.2, .inl ⟨rfl, rfl, b, ?_, whole_bytes h b⟩⟩
    have h1 := ((_root_.Hex.decode_isSome_iff s).mp ⟨b, e⟩).1
    have h2 := congrArg List.length (_root_.Hex.encode_decode_upper s b e)
    have h3 := hex_length b
    rw [List.length_map] at h2
    omega
  | none =>
    rw [e] at hR
    obtain ⟨⟨x, -, r1⟩, y, -, r2⟩ := hR
    exact ⟨_, _, _, _, r1, r2, .inr ⟨errOf_ne s 0, rfl⟩⟩

/-- **C119** Two programs get the same of the same text: the same bytes, or the same error. -/
theorem C119_agree (P Q : Prog) (bd bd' : _root_.Hex.Build) (hP : HexIn P bd) (hQ : HexIn Q bd') (h g h' g' : List Val) (s : List U8) (hl : Fits P (s.length + 1))
    (hl' : Fits Q (s.length + 1)) (r e r' e' : Val) (h1 : Returns P Hex.path 0 (n! "ToBytes") [.str s] h [r, e] h')
    (h2 : Returns Q Hex.path 0 (n! "ToBytes") [.str s] g [r', e'] g') :
    e = e' ∧ (e = .nil → ∃ b, HasBytes h' r b ∧ HasBytes g' r' b) ∧ (e ≠ .nil → r = .nil ∧ r' = .nil) := by
  rcases read_of hP hl h1 with ⟨b, d1, e1, rfl⟩ | ⟨d1, e1⟩ <;> rcases read_of hQ hl' h2 with ⟨b', d2, e2, rfl⟩ | ⟨d2, e2⟩
  · rw [d1] at d2
    cases d2
    simp only [List.cons.injEq, and_true] at e1 e2
    obtain ⟨rfl, rfl⟩ := e1
    obtain ⟨rfl, rfl⟩ := e2
    exact ⟨rfl, fun _ => ⟨b, whole_bytes h b, whole_bytes g b⟩, fun h => absurd rfl h⟩
  · rw [d1] at d2
    cases d2
  · rw [d1] at d2
    cases d2
  · simp only [List.cons.injEq, and_true] at e1 e2
    obtain ⟨rfl, rfl⟩ := e1
    obtain ⟨rfl, rfl⟩ := e2
    exact ⟨rfl, fun h => absurd h (errOf_ne s 0), fun _ => ⟨rfl, rfl⟩⟩

/-- **C119** What one program writes, another reads: the same bytes, in a new slice, and no error. -/
theorem C119_there (P Q : Prog) (bd bd' : _root_.Hex.Build) (hP : HexIn P bd) (hQ : HexIn Q bd') (h h' g : List Val) (v : Val) (b : List U8) (hb : HasBytes h v b)
    (hl : Fits P (b.length * 2)) (hl' : Fits Q (b.length * 2 + 1)) (t : Val) (ht : Returns P Hex.path 0 (n! "FromBytes") [v] h [t] h') :
    ∃ r, HasBytes (g ++ [.arr (b.map .u8)]) r b ∧ Returns Q Hex.path 0 (n! "ToBytes") [t] g [r, .nil] (g ++ [.arr (b.map .u8)]) ∧
      Returns Q Hex.path 0 (n! "ToBytesFast") [t] g [r] (g ++ [.arr (b.map .u8)]) := by
  have e := (ht.unique (C89_encode P bd hP.text hP.word h v b hb hl)).1
  simp only [List.cons.injEq, and_true] at e
  subst e
  have h3 := hex_length b
  exact ⟨_, whole_bytes g b, C89_decode Q bd' hQ.text hQ.word g _ b (_root_.Hex.decode_encode b) (by rw [h3]; exact hl')⟩

/-- **C119** Text that one program has read, written by another: the same text with capital letters. -/
theorem C119_back (P Q : Prog) (bd bd' : _root_.Hex.Build) (hP : HexIn P bd) (hQ : HexIn Q bd') (h h' g : List Val) (s : List U8) (hl : Fits P (s.length + 1))
    (hl' : Fits Q s.length) (r : Val) (hr : Returns P Hex.path 0 (n! "ToBytes") [.str s] h [r, .nil] h') :
    ∃ b, HasBytes h' r b ∧ ∀ v, HasBytes g v b → ∃ g', Returns Q Hex.path 0 (n! "FromBytes") [v] g [.str (s.map upper)] g' := by
  rcases read_of hP hl hr with ⟨b, d, e, rfl⟩ | ⟨d, e⟩
  · simp only [List.cons.injEq, and_true] at e
    obtain ⟨rfl, -⟩ := e
    refine ⟨b, whole_bytes h b, fun v hv => ?_⟩
    have e := _root_.Hex.encode_decode_upper s b d
    have h3 := hex_length b
    have h4 := congrArg List.length e
    rw [List.length_map, h3] at h4
    have := C89_encode Q bd' hQ.text hQ.word g v b hv (by rw [h4]; exact hl')
    rw [e] at this
    exact ⟨_, this⟩
  · simp only [List.cons.injEq, and_true] at e
    exact absurd e.2.symm (errOf_ne s 0)

/-- **C119** The texts that two programs write are equal exactly when the bytes are, and stand in the order in which the bytes stand. -/
theorem C119_order (P Q : Prog) (bd bd' : _root_.Hex.Build) (hP : HexIn P bd) (hQ : HexIn Q bd') (h h' g g' : List Val) (v w : Val) (a b : List U8)
    (ha : HasBytes h v a) (hb : HasBytes g w b) (hl : Fits P (a.length * 2)) (hl' : Fits Q (b.length * 2)) (r r' : Val)
    (h1 : Returns P Hex.path 0 (n! "FromBytes") [v] h [r] h') (h2 : Returns Q Hex.path 0 (n! "FromBytes") [w] g [r'] g') :
    ∃ s t, r = .str s ∧ r' = .str t ∧ (s = t ↔ a = b) ∧ (s < t ↔ a < b) := by
  have e1 := (h1.unique (C89_encode P bd hP.text hP.word h v a ha hl)).1
  have e2 := (h2.unique (C89_encode Q bd' hQ.text hQ.word g w b hb hl')).1
  simp only [List.cons.injEq, and_true] at e1 e2
  refine ⟨_, _, e1, e2, ⟨fun e => ?_, fun e => by rw [e]⟩, _root_.Hex.encode_lt a b⟩
  have := (_root_.Hex.decode_encode a).symm.trans ((congrArg HexSpec.decode e).trans (_root_.Hex.decode_encode b))
  exact Option.some.inj this

/-- **C119** Two programs that read two texts without error get the same bytes exactly when the texts differ in the case of letters only. -/
theorem C119_case (P Q : Prog) (bd bd' : _root_.Hex.Build) (hP : HexIn P bd) (hQ : HexIn Q bd') (h g h' g' : List Val) (s t : List U8) (hl : Fits P (s.length + 1))
    (hl' : Fits Q (t.length + 1)) (r r' : Val) (h1 : Returns P Hex.path 0 (n! "ToBytes") [.str s] h [r, .nil] h')
    (h2 : Returns Q Hex.path 0 (n! "ToBytes") [.str t] g [r', .nil] g') :
    ∃ a b, HasBytes h' r a ∧ HasBytes g' r' b ∧ (a = b ↔ s.map upper = t.map upper) := by
  rcases read_of hP hl h1 with ⟨a, d1, e1, rfl⟩ | ⟨d1, e1⟩
  · rcases read_of hQ hl' h2 with ⟨b, d2, e2, rfl⟩ | ⟨d2, e2⟩
    · simp only [List.cons.injEq, and_true] at e1 e2
      obtain ⟨rfl, -⟩ := e1
      obtain ⟨rfl, -⟩ := e2
      refine ⟨a, b, whole_bytes h a, whole_bytes g b, fun e => ?_, fun e => ?_⟩
      · rw [← _root_.Hex.encode_decode_upper s a d1, ← _root_.Hex.encode_decode_upper t b d2, e]
      · have := _root_.Hex.decode_map_upper s
        rw [e, _root_.Hex.decode_map_upper, d1, d2] at this
        exact (Option.some.inj this).symm
    · simp only [List.cons.injEq, and_true] at e2
      exact absurd e2.2.symm (errOf_ne t 0)
  · simp only [List.cons.injEq, and_true] at e1
    exact absurd e1.2.symm (errOf_ne s 0)

/-- **C119** One character of the text is wrong. If it is no digit, the reader gets an error with that character and its place. If it is a
digit, the reader gets other bytes, unless it is the right digit as a small letter. -/
theorem C119_wrong (P Q : Prog) (bd bd' : _root_.Hex.Build) (hP : HexIn P bd) (hQ : HexIn Q bd') (h h' g : List Val) (v : Val) (b : List U8) (hb : HasBytes h v b)
    (hl : Fits P (b.length * 2)) (hl' : Fits Q (b.length * 2 + 1)) (pre post : List U8) (x c : U8)
    (ht : Returns P Hex.path 0 (n! "FromBytes") [v] h [.str (pre ++ x :: post)] h') :
    (¬ IsHex c → ∃ g', Returns Q Hex.path 0 (n! "ToBytes") [.str (pre ++ c :: post)] g [.nil, invalidAt c pre.length] g') ∧
    (IsHex c → ∃ r g' b', Returns Q Hex.path 0 (n! "ToBytes") [.str (pre ++ c :: post)] g [r, .nil] g' ∧ HasBytes g' r b' ∧ (b' = b ↔ upper c = x)) := by
  have e := (ht.unique (C89_encode P bd hP.text hP.word h v b hb hl)).1
  simp only [List.cons.injEq, and_true, Val.str.injEq] at e
  have h3 := hex_length b
  have hd := _root_.Hex.decode_encode b
  rw [← e] at h3 hd
  have hx := ((_root_.Hex.decode_isSome_iff _).mp ⟨b, hd⟩)
  have hlen : (pre ++ c :: post).length = b.length * 2 := by rw [← h3]; simp
  constructor
  · intro hc
    obtain ⟨⟨g', r, -⟩, -⟩ := C89_invalid Q bd' hQ.text hQ.word g pre c post (fun y hy => hx.2 y (by simp [hy])) hc (by rw [hlen]; exact hl')
    exact ⟨g', r⟩
  · intro hc
    obtain ⟨b', hb'⟩ := (_root_.Hex.decode_isSome_iff (pre ++ c :: post)).mpr ⟨by rw [hlen]; omega, fun y hy => by
      rcases List.mem_append.mp hy with hy | hy
      · exact hx.2 y (by simp [hy])
      · rcases List.mem_cons.mp hy with rfl | hy
        · exact hc
        · exact hx.2 y (by simp [hy])⟩
    refine ⟨_, _, b', (C89_decode Q bd' hQ.text hQ.word g _ b' hb' (by rw [hlen]; exact hl')).1, whole_bytes g b', ?_⟩
    have u1 := _root_.Hex.encode_decode_upper _ b hd
    have u2 := _root_.Hex.encode_decode_upper _ b' hb'
    have u3 : (pre ++ x :: post).map upper = pre ++ x :: post := by rw [← u1, e]
    simp only [List.map_append, List.map_cons] at u1 u2 u3
    obtain ⟨u4, u5⟩ := List.append_inj u3 (by simp)
    obtain ⟨u6, u7⟩ := List.cons.inj u5
    constructor
    · rintro rfl
      rw [u1] at u2
      have := (List.append_inj u2 rfl).2
      rw [← (List.cons.inj this).1, u6]
    · intro hu
      have : encode b' = encode b := by rw [u2, u1, hu, u6]
      have := (_root_.Hex.decode_encode b').symm.trans ((congrArg HexSpec.decode this).trans (_root_.Hex.decode_encode b))
      exact Option.some.inj this

/-- **C119** A character of the text is lost, or a digit is added: the reader gets the error about the length. -/
theorem C119_lost (P Q : Prog) (bd bd' : _root_.Hex.Build) (hP : HexIn P bd) (hQ : HexIn Q bd') (h h' g : List Val) (v : Val) (b : List U8) (hb : HasBytes h v b)
    (hl : Fits P (b.length * 2)) (hl' : Fits Q (b.length * 2 + 2)) (pre post : List U8) (x : U8) :
    (Returns P Hex.path 0 (n! "FromBytes") [v] h [.str (pre ++ x :: post)] h' → ∃ g', Returns Q Hex.path 0 (n! "ToBytes") [.str (pre ++ post)] g [.nil, lengthErr] g') ∧
    (Returns P Hex.path 0 (n! "FromBytes") [v] h [.str (pre ++ post)] h' → IsHex x →
      ∃ g', Returns Q Hex.path 0 (n! "ToBytes") [.str (pre ++ x :: post)] g [.nil, lengthErr] g') := by
  have h3 := hex_length b
  have hd := _root_.Hex.decode_encode b
  unfold Fits at hl'
  constructor
  · intro ht
    have e := (ht.unique (C89_encode P bd hP.text hP.word h v b hb hl)).1
    simp only [List.cons.injEq, and_true, Val.str.injEq] at e
    rw [← e] at h3 hd
    have hx := ((_root_.Hex.decode_isSome_iff _).mp ⟨b, hd⟩)
    simp only [List.length_append, List.length_cons] at h3
    obtain ⟨⟨g', r, -⟩, -⟩ := C89_odd Q bd' hQ.text hQ.word g (pre ++ post) (fun y hy => hx.2 y (by
      rcases List.mem_append.mp hy with hy | hy <;> simp [hy])) (by rw [List.length_append]; omega) (by unfold Fits; rw [List.length_append]; omega)
    exact ⟨g', r⟩
  · intro ht hc
    have e := (ht.unique (C89_encode P bd hP.text hP.word h v b hb hl)).1
    simp only [List.cons.injEq, and_true, Val.str.injEq] at e
    rw [← e] at h3 hd
    have hx := ((_root_.Hex.decode_isSome_iff _).mp ⟨b, hd⟩)
    rw [List.length_append] at h3
    obtain ⟨⟨g', r, -⟩, -⟩ := C89_odd Q bd' hQ.text hQ.word g (pre ++ x :: post) (fun y hy => by
      rcases List.mem_append.mp hy with hy | hy
      · exact hx.2 y (by simp [hy])
      · rcases List.mem_cons.mp hy with rfl | hy
        · exact hc
        · exact hx.2 y (by simp [hy])) (by rw [List.length_append, List.length_cons]; omega) (by unfold Fits; rw [List.length_append, List.length_cons]; omega)
    exact ⟨g', r⟩

/-! ## Examples -/

/-- A program on a 32-bit machine. -/
def hexProg32 (bd : _root_.Hex.Build) : Prog := { hexProg bd with W := 32 }

theorem hexProg_in (bd : _root_.Hex.Build) : HexIn (hexProg bd) bd ∧ HexIn (hexProg32 bd) bd :=
  ⟨⟨hexProg_has bd, by simp [hexProg]⟩, ⟨Hex.pkg bd, Hex.text bd, by cases bd <;> kernel_rfl⟩, by simp [hexProg32]⟩

theorem two_bytes : HasBytes [.arr [.u8 0xab, .u8 7]] (.slice 0 [] 0 2 2) [0xab, 7] := IsBytes.has (.inr ⟨0, [], 0, 2, _, _, rfl, rfl, rfl, by decide, by decide, rfl⟩)

/-- Written with tables on a machine of 64 bits, read without on one of 32. -/
example : ∃ t h' r, Returns (hexProg .table) Hex.path 0 (n! "FromBytes") [.slice 0 [] 0 2 2] [.arr [.u8 0xab, .u8 7]] [t] h' ∧
    Returns (hexProg32 .tiny) Hex.path 0 (n! "ToBytes") [t] [] [r, .nil] [.arr [.u8 0xab, .u8 7]] ∧ HasBytes [.arr [.u8 0xab, .u8 7]] r [0xab, 7] := by
  have r := C89_encode _ .table (hexProg_in .table).1.text (hexProg_in .table).1.word _ _ _ two_bytes (by simp [Fits, hexProg])
  obtain ⟨x, h1, h2, -⟩ := C119_there _ _ .table .tiny (hexProg_in .table).1 (hexProg_in .tiny).2 _ _ [] _ _ two_bytes (by simp [Fits, hexProg]) (by simp [Fits, hexProg32]) _ r
  exact ⟨_, _, x, r, h2, h1⟩

/-- "AB07" with its second character wrong. -/
example : (∃ g', Returns (hexProg32 .tiny) Hex.path 0 (n! "ToBytes") [.str (ascii "Ax07")] [] [.nil, invalidAt 120 1] g') ∧
    ∃ r g' b', Returns (hexProg32 .tiny) Hex.path 0 (n! "ToBytes") [.str (ascii "AC07")] [] [r, .nil] g' ∧ HasBytes g' r b' ∧ b' ≠ [0xab, 7] := by
  have r := C89_encode _ .table (hexProg_in .table).1.text (hexProg_in .table).1.word _ _ _ two_bytes (by simp [Fits, hexProg])
  have w := fun c => C119_wrong _ _ .table .tiny (hexProg_in .table).1 (hexProg_in .tiny).2 _ _ [] _ _ two_bytes (by simp [Fits, hexProg]) (by simp [Fits, hexProg32])
    [65] [48, 55] 66 c r
  refine ⟨(w 120).1 (by decide), ?_⟩
  obtain ⟨x, g', b', h1, h2, h3⟩ := (w 67).2 (by decide)
  exact ⟨x, g', b', h1, h2, fun e => absurd (h3.mp e) (by decide)⟩

/-- Small letters, a letter that is no digit and half a byte: both programs, with what they make of each. -/
theorem texts_read (bd : _root_.Hex.Build) : (∃ h', Returns (hexProg bd) Hex.path 0 (n! "ToBytes") [.str (ascii "ab07")] [] [.slice 0 [] 0 2 2, .nil] h') ∧
    (∃ h', Returns (hexProg32 bd) Hex.path 0 (n! "ToBytes") [.str (ascii "aB07")] [] [.slice 0 [] 0 2 2, .nil] h') ∧
    ∀ s, s = ascii "ag07" ∨ s = ascii "ab0" → (∃ e h', Returns (hexProg bd) Hex.path 0 (n! "ToBytes") [.str s] [] [.nil, e] h' ∧ e ≠ .nil) ∧
      ∃ e h', Returns (hexProg32 bd) Hex.path 0 (n! "ToBytes") [.str s] [] [.nil, e] h' ∧ e ≠ .nil := by
  obtain ⟨p, q⟩ := hexProg_in bd
  refine ⟨⟨_, (C89_decode _ bd p.text p.word [] _ [0xab, 7] (by decide) (by simp [Fits, hexProg, ascii])).1⟩,
    ⟨_, (C89_decode _ bd q.text q.word [] _ [0xab, 7] (by decide) (by simp [Fits, hexProg32, ascii])).1⟩, fun s hs => ?_⟩
  have n : HexSpec.decode s = none := by rcases hs with rfl | rfl <;> decide
  have l : s.length + 1 ≤ 5 := by rcases hs with rfl | rfl <;> decide
  have r := hex_reads p s [] (by simp only [Fits, hexProg]; omega)
  have t := hex_reads q s [] (by simp only [Fits, hexProg32]; omega)
  rw [HexReads, n] at r t
  obtain ⟨⟨x, -, r⟩, -⟩ := r
  obtain ⟨⟨y, -, t⟩, -⟩ := t
  exact ⟨⟨_, _, r, errOf_ne s 0⟩, _, _, t, errOf_ne s 0⟩

/-- The error of a wrong text is the same in both builds and on both machines; a right text has none. -/
example (e e' : Val) (h' g' : List Val) (h1 : Returns (hexProg .table) Hex.path 0 (n! "ToBytes") [.str (ascii "ag07")] [] [.nil, e] h')
    (h2 : Returns (hexProg32 .tiny) Hex.path 0 (n! "ToBytes") [.str (ascii "ag07")] [] [.nil, e'] g') : e = e' :=
  (C119_agree _ _ .table .tiny (hexProg_in .table).1 (hexProg_in .tiny).2 _ _ _ _ _ (by simp [Fits, hexProg, ascii]) (by simp [Fits, hexProg32, ascii]) _ _ _ _ h1 h2).1

example : ∃ r e x y, Returns (hexProg32 .tiny) Hex.path 0 (n! "ToBytes") [.str (ascii "ab0")] [] [r, e] [.arr x] ∧
    Returns (hexProg32 .tiny) Hex.path 0 (n! "ToBytesFast") [.str (ascii "ab0")] [] [r] [.arr y] ∧ e ≠ .nil := by
  obtain ⟨r, e, x, y, h1, h2, h3⟩ := C119_total _ .tiny (hexProg_in .tiny).2 [] (ascii "ab0") (by simp [Fits, hexProg32, ascii])
  refine ⟨r, e, x, y, h1, h2, ?_⟩
  rcases h3 with ⟨-, -, b, hb, -⟩ | h
  · have : (ascii "ab0").length = 3 := by decide
    omega
  · exact h.1

/-- "ab07" read by one and written by the other is "AB07". -/
example (g : List Val) (v : Val) (hv : HasBytes g v [0xab, 7]) : ∃ g', Returns (hexProg32 .tiny) Hex.path 0 (n! "FromBytes") [v] g [.str (ascii "AB07")] g' := by
  obtain ⟨⟨h', r⟩, -⟩ := texts_read .table
  obtain ⟨b, h1, h2⟩ := C119_back _ (hexProg32 .tiny) .table .tiny (hexProg_in .table).1 (hexProg_in .tiny).2 _ _ g _ (by simp [Fits, hexProg, ascii])
    (by simp [Fits, hexProg32, ascii]) _ r
  have e := (r.unique (C89_decode _ .table (hexProg_in .table).1.text (hexProg_in .table).1.word [] _ [0xab, 7] (by decide) (by simp [Fits, hexProg, ascii])).1).2
  rw [e] at h1
  cases (whole_bytes [] [0xab, 7]).unique h1
  exact h2 v hv

/-- "ab07" on one machine and "aB07" on another are the same bytes. -/
example : ∃ h' g' b, HasBytes h' (.slice 0 [] 0 2 2) b ∧ HasBytes g' (.slice 0 [] 0 2 2) b ∧
    Returns (hexProg .table) Hex.path 0 (n! "ToBytes") [.str (ascii "ab07")] [] [.slice 0 [] 0 2 2, .nil] h' := by
  obtain ⟨⟨h', r⟩, -⟩ := texts_read .table
  obtain ⟨-, ⟨g', q⟩, -⟩ := texts_read .tiny
  obtain ⟨a, b, h1, h2, h3⟩ := C119_case _ _ .table .tiny (hexProg_in .table).1 (hexProg_in .tiny).2 _ _ _ _ _ _ (by simp [Fits, hexProg, ascii])
    (by simp [Fits, hexProg32, ascii]) _ _ r q
  exact ⟨h', g', a, h1, h3.mpr (by decide) ▸ h2, r⟩

/-- Bytes in order, texts in order. -/
example (g g' : List Val) (w : Val) (hw : HasBytes g w [0xab, 0x10, 0]) (h' : List Val) (r r' : Val)
    (h1 : Returns (hexProg .table) Hex.path 0 (n! "FromBytes") [.slice 0 [] 0 2 2] [.arr [.u8 0xab, .u8 7]] [r] h')
    (h2 : Returns (hexProg32 .tiny) Hex.path 0 (n! "FromBytes") [w] g [r'] g') : ∃ s t, r = .str s ∧ r' = .str t ∧ s < t := by
  obtain ⟨s, t, e1, e2, -, e⟩ := C119_order _ _ .table .tiny (hexProg_in .table).1 (hexProg_in .tiny).2 _ _ _ _ _ _ _ _ two_bytes hw (by simp [Fits, hexProg])
    (by simp [Fits, hexProg32]) _ _ h1 h2
  exact ⟨s, t, e1, e2, e.mpr (by decide)⟩

/-- "AB07" without its third character. -/
example : ∃ g', Returns (hexProg32 .tiny) Hex.path 0 (n! "ToBytes") [.str (ascii "AB7")] [] [.nil, lengthErr] g' := by
  have r := C89_encode _ .table (hexProg_in .table).1.text (hexProg_in .table).1.word _ _ _ two_bytes (by simp [Fits, hexProg])
  exact (C119_lost _ _ .table .tiny (hexProg_in .table).1 (hexProg_in .tiny).2 _ _ [] _ _ two_bytes (by simp [Fits, hexProg]) (by simp [Fits, hexProg32])
    [65, 66] [55] 48).1 r

end Source
