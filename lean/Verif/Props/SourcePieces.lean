import Verif.Props.SourceErrors
import Verif.Props.SourceCounts

/-!
# C124: data that comes in pieces, run from the text of the checksum packages

Package `hash` asks that it make no difference in which pieces data is written. For `bcc` that is so (C112). Here: what the other packages compute from
pieces, and when two programs that write the same data in different pieces agree.
-/
namespace Source
open GoLang hiding leNat
open HashSpec ChecksumSpec Checksum

/-! ## lrc -/

section lrc
variable {P Q : Prog} (hP : P.Has Lrc.path [Lrc.src] []) (hQ : Q.Has Lrc.path [Lrc.src] []) (hW : 32 ≤ P.W) (hV : 32 ≤ Q.W)
include hP hW

/-- **C124** What lrc.go computes from pieces: their byte sums added with alternating signs, the last one negative. -/
theorem C124_lrc_value (ps : List (List U8)) (hf : FitsWord P ps) (n : Nat) :
    LrcOf P ps n ↔ n < 256 ∧ (n : Int) % 256 = alternating (ps.map byteSum) % 256 := by
  rw [LrcOf, checks_iff (C87_lrc P hP hW) (by decide) hf]
  obtain ⟨outs, k, e, h1, h2⟩ := C37_lrc_chunks_partial ps
  constructor
  · rintro ⟨o, h⟩
    rw [e] at h
    simp only [Res.ok.injEq] at h
    cases last_num h
    exact ⟨h1, h2⟩
  · rintro ⟨h3, h4⟩
    have : n = k := by omega
    subst this
    exact ⟨outs, e⟩

/-- **C124** A piece more, be it an empty one, turns the sign of everything before it. -/
theorem C124_lrc_next (ps : List (List U8)) (p : List U8) (hf : FitsWord P (ps ++ [p])) (n m : Nat) (hn : LrcOf P ps n) (hm : LrcOf P (ps ++ [p]) m) :
    (m + n + byteSum p) % 256 = 0 := by
  obtain ⟨h1, h2⟩ := (C124_lrc_value hP hW ps (fun q hq => hf q (List.mem_append_left _ hq)) n).mp hn
  obtain ⟨h3, h4⟩ := (C124_lrc_value hP hW _ hf m).mp hm
  rw [List.map_append, List.map_singleton, alternating_snoc] at h4
  omega

include hQ hV

/-- **C124** Two programs agree on data in two pieces and at once exactly if the bytes of the first piece add up to a multiple of 128. -/
theorem C124_lrc_two (p q : List U8) (hf : FitsWord P [p ++ q]) (hg : FitsWord Q [p, q]) (n m : Nat) (hn : LrcOf P [p ++ q] n) (hm : LrcOf Q [p, q] m) :
    n = m ↔ byteSum p % 128 = 0 := by
  obtain ⟨h1, h2⟩ := (C124_lrc_value hP hW _ hf n).mp hn
  obtain ⟨h3, h4⟩ := (C124_lrc_value hQ hV _ hg m).mp hm
  have e : byteSum (p ++ q) = byteSum p + byteSum q := by simp [byteSum]
  simp only [List.map_cons, List.map_nil, alternating, List.length_nil, List.length_cons, e] at h2 h4
  omega

/-- **C124** So of the first pieces of length `n+1` only `2 * 256^n`, one in 128, do no harm, whatever follows. -/
theorem C124_lrc_count (n : Nat) (q : List U8) (hf : ((n + 1 + q.length : Nat) : Int) < 2 ^ (P.W - 1)) (hg : ((n + 1 + q.length : Nat) : Int) < 2 ^ (Q.W - 1)) :
    {p : List U8 | p.length = n + 1 ∧ ∃ c, LrcOf P [p ++ q] c ∧ LrcOf Q [p, q] c}.ncard = 2 * 256 ^ n := by
  have key : ∀ p : List U8, p.length = n + 1 → ((∃ c, LrcOf P [p ++ q] c ∧ LrcOf Q [p, q] c) ↔ LrcOf P [p] 0 ∨ LrcOf P [p] 128) := by
    intro p hp
    have f1 : FitsWord P [p ++ q] := fun x hx => by
      rw [List.mem_singleton.mp hx, List.length_append, hp]; exact hf
    have f2 : FitsWord Q [p, q] := fun x hx => by
      rcases List.mem_cons.mp hx with rfl | hx
      · rw [hp]; omega
      · rw [List.mem_singleton.mp hx]; omega
    have f3 : FitsWord P [p] := fun x hx => by
      rw [List.mem_singleton.mp hx, hp]; omega
    rw [C112_lrc_value hP hW p f3, C112_lrc_value hP hW p f3]
    constructor
    · rintro ⟨c, h1, h2⟩
      have := (C124_lrc_two hP hQ hW hV p q f1 f2 c c h1 h2).mp rfl
      omega
    · intro h
      have e : byteSum (p ++ q) = byteSum p + byteSum q := by simp [byteSum]
      refine ⟨(256 - byteSum (p ++ q) % 256) % 256, (C112_lrc_value hP hW _ f1 _).mpr (by omega), (C124_lrc_value hQ hV _ f2 _).mpr ⟨by omega, ?_⟩⟩
      simp only [List.map_cons, List.map_nil, alternating, List.length_nil, List.length_cons, e]
      omega
  have e : {p : List U8 | p.length = n + 1 ∧ ∃ c, LrcOf P [p ++ q] c ∧ LrcOf Q [p, q] c} =
      {p : List U8 | p.length = n + 1 ∧ LrcOf P [p] 0} ∪ {p : List U8 | p.length = n + 1 ∧ LrcOf P [p] 128} := by
    ext p
    simp only [Set.mem_setOf_eq, Set.mem_union]
    constructor
    · rintro ⟨h1, h2⟩
      rcases (key p h1).mp h2 with h | h
      · exact .inl ⟨h1, h⟩
      · exact .inr ⟨h1, h⟩
    · rintro (⟨h1, h⟩ | ⟨h1, h⟩)
      · exact ⟨h1, (key p h1).mpr (.inl h)⟩
      · exact ⟨h1, (key p h1).mpr (.inr h)⟩
  have hn : ((n + 1 : Nat) : Int) < 2 ^ (P.W - 1) := by omega
  have c0 := C120_lrc hP hW n 0 hn (by omega)
  have c1 := C120_lrc hP hW n 128 hn (by omega)
  have pos : 0 < 256 ^ n := Nat.pow_pos (by omega)
  rw [e, Set.ncard_union_eq ?_ (Set.finite_of_ncard_pos (by omega)) (Set.finite_of_ncard_pos (by omega)), c0, c1]
  · omega
  · rw [Set.disjoint_left]
    rintro p ⟨h1, h2⟩ ⟨-, h3⟩
    have f3 : FitsWord P [p] := fun x hx => by
      rw [List.mem_singleton.mp hx, h1]; omega
    have := (C112_lrc_value hP hW p f3 _).mp h2
    have := (C112_lrc_value hP hW p f3 _).mp h3
    omega

end lrc

/-! ## fletcher -/

/-- Pieces that fletcher16.go takes. -/
def PiecesTaken (k : Nat) (ps : List (List U8)) : Prop := k = 1 → ∀ p ∈ ps, p.length ≤ 5802

theorem pieces16 : ∀ (ps : List (List U8)) (log : List U8), (∀ p ∈ ps, p.length ≤ 5802) →
    writesOk Ok16 log (ps.map .write ++ [.sumN]) ∧ ∃ o, expectFrom (fletcherAlgo 1) log (ps.map .write ++ [.sumN]) =
      o ++ [.num (fletcher 1 (words 1 (log ++ ps.flatten)))]
  | [], log, _ => ⟨trivial, [], by simp [expectFrom, fletcherAlgo]⟩
  | p :: ps, log, h => by
    obtain ⟨h1, o, e⟩ := pieces16 ps (log ++ p) fun q hq => h q (List.mem_cons_of_mem _ hq)
    exact ⟨⟨.inl (h p List.mem_cons_self), h1⟩, .wrote p.length false :: o, by simp [expectFrom, e]⟩

/-- Equal checksums of word lists: both sums are equal. -/
theorem fletcher_eq_iff {k : Nat} (hk : 0 < k) (ws vs : List Nat) :
    fletcher k ws = fletcher k vs ↔ ws.sum ≡ vs.sum [MOD 256 ^ k - 1] ∧ runningTotal ws ≡ runningTotal vs [MOD 256 ^ k - 1] := by
  have h1 : 256 ≤ 256 ^ k := by
    calc 256 = 256 ^ 1 := rfl
      _ ≤ 256 ^ k := Nat.pow_le_pow_right (by omega) hk
  have hA : ∀ z, z % (256 ^ k - 1) < 256 ^ k := fun z => Nat.lt_of_lt_of_le (Nat.mod_lt _ (by omega)) (by omega)
  unfold fletcher
  constructor
  · intro h
    have e1 := congrArg (· % 256 ^ k) h
    have e2 := congrArg (· / 256 ^ k) h
    simp only [Nat.mul_comm _ (256 ^ k), Nat.mul_add_mod, Nat.mod_eq_of_lt (hA _),
      Nat.mul_add_div (show 256 ^ k > 0 by omega), Nat.div_eq_of_lt (hA _), Nat.add_zero] at e1 e2
    exact ⟨e1, e2⟩
  · rintro ⟨e1, e2⟩
    rw [show ws.sum % _ = _ from e1, show runningTotal ws % _ = _ from e2]

theorem leNat_snoc (t : List U8) (y : U8) : leNat (t ++ [y]) = leNat t + 256 ^ t.length * y.toNat := by
  induction t with
  | nil => simp [leNat]
  | cons b t ih => simp only [List.cons_append, leNat, ih, List.length_cons, pow_succ]; ring

theorem words_short {k : Nat} (hk : 0 < k) (t : List U8) (h0 : t ≠ []) (h : t.length ≤ k) : words k t = [leNat t] := by
  rw [words_cons hk t h0, List.take_of_length_le h, List.drop_eq_nil_of_le h, words_nil hk]

section fletcher
variable {P Q : Prog} (hP : P.Has Fletcher.path fletcherTexts []) (hQ : Q.Has Fletcher.path fletcherTexts []) (hW : 32 ≤ P.W) (hV : 32 ≤ Q.W)
  {k : Nat} (hk : k = 1 ∨ k = 2 ∨ k = 4)

include hP hW hk in
/-- **C124** What the package computes from pieces: each piece is filled up with zeros to whole words. -/
theorem C124_fletcher_value (ps : List (List U8)) (hf : FitsWord P ps) (ht : PiecesTaken k ps) (n : Nat) :
    FletcherOf P k ps n ↔ n = fletcher k (ps.flatMap (words k)) := by
  rcases hk with rfl | rfl | rfl
  · rw [show FletcherOf P 1 ps n = Checks P Fletcher.path (n! "digest16") (n! "New16") (n! "Sum16") ps n from rfl,
      checks_iff (C87_fletcher16 P hP hW) (by decide) hf]
    obtain ⟨h1, o, e⟩ := pieces16 ps [] (ht rfl)
    have e2 : ps.flatMap (words 1) = words 1 ps.flatten := by
      rw [_root_.Fletcher.words_one, List.map_flatten, List.flatMap, show words 1 = List.map BitVec.toNat from funext _root_.Fletcher.words_one]
    rw [C38_fletcher16_partial _ h1, e2, show expect (fletcherAlgo 1) (ps.map .write ++ [.sumN]) = _ from e]
    constructor
    · rintro ⟨o', h⟩
      simp only [Res.ok.injEq] at h
      exact (last_num h).symm
    · rintro rfl
      exact ⟨o, rfl⟩
  · rw [show FletcherOf P 2 ps n = Checks P Fletcher.path (n! "digest32") (n! "New32") (n! "Sum32") ps n from rfl,
      checks_iff (C87_fletcher32 P hP hW) (by decide) hf]
    obtain ⟨o, e⟩ := (C41_fletcher_chunks_partial ps).1
    rw [e]
    constructor
    · rintro ⟨o', h⟩
      simp only [Res.ok.injEq] at h
      exact (last_num h).symm
    · rintro rfl
      exact ⟨o, rfl⟩
  · rw [show FletcherOf P 4 ps n = Checks P Fletcher.path (n! "digest64") (n! "New64") (n! "Sum64") ps n from rfl,
      checks_iff (C87_fletcher64 P hP hW) (by decide) hf]
    obtain ⟨o, e⟩ := (C41_fletcher_chunks_partial ps).2
    rw [e]
    constructor
    · rintro ⟨o', h⟩
      simp only [Res.ok.injEq] at h
      exact (last_num h).symm
    · rintro rfl
      exact ⟨o, rfl⟩

theorem words_pieces (hk : 0 < k) : ∀ ps : List (List U8), (∀ p ∈ ps.dropLast, k ∣ p.length) → ps.flatMap (words k) = words k ps.flatten
  | [], _ => (words_nil hk).symm
  | [p], _ => by simp
  | p :: q :: ps, h => by
    obtain ⟨c, hc⟩ := h p (by simp)
    rw [List.flatMap_cons, words_pieces hk (q :: ps) fun x hx => h x (by rw [List.dropLast_cons_cons]; exact List.mem_cons_of_mem _ hx),
      show (p :: q :: ps).flatten = p ++ (q :: ps).flatten from rfl, words_append hk c p _ hc]

include hP hQ hW hV hk

/-- **C124** Two programs that write the same data in pieces of whole words, except for the last, agree. -/
theorem C124_fletcher_agree (ps qs : List (List U8)) (hf : FitsWord P ps) (hg : FitsWord Q qs) (ht : PiecesTaken k ps) (hu : PiecesTaken k qs)
    (hp : ∀ p ∈ ps.dropLast, k ∣ p.length) (hq : ∀ q ∈ qs.dropLast, k ∣ q.length) (he : ps.flatten = qs.flatten) (n m : Nat)
    (hn : FletcherOf P k ps n) (hm : FletcherOf Q k qs m) : n = m := by
  have h0 : 0 < k := by omega
  rw [(C124_fletcher_value hP hW hk ps hf ht n).mp hn, (C124_fletcher_value hQ hV hk qs hg hu m).mp hm, words_pieces h0 ps hp, words_pieces h0 qs hq, he]

/-- **C124** And if the data before the last byte does not end with a whole word? Written apart, the last byte gives another checksum, unless it is 0
and the words before it add up to a multiple of `256^k-1`. -/
theorem C124_fletcher_byte (p : List U8) (y : U8) (hf : FitsWord P [p ++ [y]]) (hg : FitsWord Q [p, [y]]) (hr : ¬ k ∣ p.length) (n m : Nat)
    (hn : FletcherOf P k [p ++ [y]] n) (hm : FletcherOf Q k [p, [y]] m) : n = m ↔ y = 0#8 ∧ (words k p).sum % (256 ^ k - 1) = 0 := by
  have h0 : 0 < k := by omega
  have hk2 : k ≠ 1 := fun e => hr (e ▸ one_dvd _)
  rw [(C124_fletcher_value hP hW hk _ hf (fun e => absurd e hk2) n).mp hn, (C124_fletcher_value hQ hV hk _ hg (fun e => absurd e hk2) m).mp hm]
  have hpos : 0 < p.length % k := Nat.pos_of_ne_zero fun e => hr (Nat.dvd_of_mod_eq_zero e)
  have hlt : p.length % k < k := Nat.mod_lt _ h0
  have hdm : k * (p.length / k) + p.length % k = p.length := Nat.div_add_mod _ _
  obtain ⟨a, t, rfl, ha, ht⟩ : ∃ a t, p = a ++ t ∧ a.length = k * (p.length / k) ∧ t.length = p.length % k :=
    ⟨p.take (k * (p.length / k)), p.drop (k * (p.length / k)), (List.take_append_drop _ _).symm, by rw [List.length_take]; omega, by rw [List.length_drop]; omega⟩
  generalize hrr : (a ++ t).length % k = r at *
  generalize (a ++ t).length / k = c at *
  have tne : t ≠ [] := by
    rintro rfl
    simp only [List.length_nil] at ht
    omega
  have e1 : [a ++ t ++ [y]].flatMap (words k) = words k a ++ [leNat t + 256 ^ r * y.toNat] := by
    rw [List.flatMap_singleton, List.append_assoc, words_append h0 c a _ ha, words_short h0 (t ++ [y]) (by simp) (by simp; omega), leNat_snoc, ht]
  have e3 : words k (a ++ t) = words k a ++ [leNat t] := by rw [words_append h0 c a _ ha, words_short h0 t tne (by omega)]
  have e2 : [a ++ t, [y]].flatMap (words k) = words k a ++ [leNat t, y.toNat] := by
    rw [List.flatMap_cons, List.flatMap_singleton, e3, words_short h0 [y] (by simp) (by simp; omega)]
    simp [leNat]
  rw [e1, e2, e3, fletcher_eq_iff h0]
  simp only [runningTotal_append, runningTotal_cons, runningTotal_nil, List.sum_append, List.sum_cons, List.sum_nil, List.length_cons, List.length_nil]
  generalize (words k a).sum = S
  generalize runningTotal (words k a) = T
  generalize leNat t = w
  have hy := y.isLt
  have hp1 : 256 ^ (r + 1) ≤ 256 ^ k := Nat.pow_le_pow_right (by omega) (by omega)
  have hp0 : 256 ^ 1 ≤ 256 ^ r := Nat.pow_le_pow_right (by omega) (by omega)
  rw [pow_succ] at hp1
  have hy0 : y = 0#8 ↔ y.toNat = 0 := by
    constructor
    · rintro rfl; rfl
    · intro h; exact BitVec.eq_of_toNat_eq (by simpa using h)
  rw [hy0]
  generalize y.toNat = v at *
  constructor
  · rintro ⟨h1, h2⟩
    have h3 : 256 ^ r * v ≡ v [MOD 256 ^ k - 1] := by
      have : (S + w) + 256 ^ r * v ≡ (S + w) + v [MOD 256 ^ k - 1] := by
        convert h1 using 1 <;> ring
      exact Nat.ModEq.add_left_cancel' _ this
    have hv : v = 0 := by
      have hle : v ≤ 256 ^ r * v := Nat.le_mul_of_pos_left _ (by omega)
      have hd := (Nat.modEq_iff_dvd' hle).mp h3.symm
      have hb : 256 ^ r * v - v < 256 ^ k - 1 := by
        have : 256 ^ r * v ≤ 256 ^ r * 255 := Nat.mul_le_mul_left _ (by omega)
        omega
      have := Nat.eq_zero_of_dvd_of_lt hd hb
      by_contra hne
      have : 256 * v ≤ 256 ^ r * v := Nat.mul_le_mul_right _ (by simpa using hp0)
      omega
    subst hv
    refine ⟨rfl, ?_⟩
    have : (T + S + w) + 0 ≡ (T + S + w) + (S + w) [MOD 256 ^ k - 1] := by
      convert h2 using 1 <;> ring
    exact (Nat.ModEq.add_left_cancel' _ this).symm
  · rintro ⟨rfl, h⟩
    refine ⟨by simp [Nat.ModEq], ?_⟩
    have h' : S + w ≡ 0 [MOD 256 ^ k - 1] := by simpa [Nat.ModEq] using h
    have : (T + S + w) + 0 ≡ (T + S + w) + (S + w) [MOD 256 ^ k - 1] := Nat.ModEq.add_left _ h'.symm
    convert this using 1 <;> ring

end fletcher

theorem long_panics (p : List U8) (h : 5803 < p.length) (hm : p.length % 5803 ≠ 0) : ∀ (ps : List (List U8)) (d : _root_.Fletcher.Digest16),
    GoHash.runFrom _root_.Fletcher.impl16 d (ps.map .write ++ [.write p]) = .panic
  | [], d => by
    simp only [List.map_nil, List.nil_append, GoHash.runFrom, GoHash.step, C38_fletcher16_panics d p h hm]
    rfl
  | q :: ps, d => by
    simp only [List.map_cons, List.cons_append, GoHash.runFrom, GoHash.step]
    cases e : _root_.Fletcher.impl16.write d q with
    | panic => rfl
    | ok x =>
      have := long_panics p h hm ps x.1
      show (GoHash.runFrom _root_.Fletcher.impl16 x.1 (ps.map .write ++ [.write p]) >>= _) = _
      rw [this]
      rfl

/-- **C124** A piece of more than 5803 bytes, whose length is not a multiple of 5803, makes fletcher16.go panic, whatever was written before. -/
theorem C124_fletcher_panics {P : Prog} (hP : P.Has Fletcher.path fletcherTexts []) (hW : 32 ≤ P.W) (ps : List (List U8)) (p : List U8)
    (hf : FitsWord P (ps ++ [p])) (hl : 5803 < p.length) (hm : p.length % 5803 ≠ 0) (h : List Val) :
    ∃ a h', Returns P Fletcher.path 0 (n! "New16") [] h [obj Fletcher.path (n! "digest16") a] h' ∧
      Plays P Fletcher.path (n! "digest16") (n! "Sum16") a h' (ps.map .write ++ [.write p]) .panic := by
  obtain ⟨a, h', hr, hp⟩ := (C87_fletcher16 P hP hW).plays h
  refine ⟨a, h', hr, (hp _ _ ⟨fun q hq => hf q ?_, fun _ => by decide⟩).mpr ?_⟩
  · simpa using hq
  · have h1 : ∃ d, _root_.Fletcher.impl16.new = .ok d := ⟨_, rfl⟩
    obtain ⟨d, h1⟩ := h1
    rw [GoHash.run, h1]
    show (GoHash.runFrom _root_.Fletcher.impl16 d (ps.map .write ++ [.write p]) >>= _) = _
    rw [long_panics p hl hm ps d]
    rfl

/-! ## Examples -/

/-- Pieces written on one machine, and the data at once on the other. -/
example (n m : Nat) (hn : LrcOf checksums [[1#8, 2#8, 4#8]] n) (hm : LrcOf checksums32 [[1#8], [2#8, 4#8]] m) : n ≠ m := fun e =>
  absurd ((C124_lrc_two checksums_has.2.1 checksums32_has.2.1 (by decide) (by decide) [1] [2, 4] (fits_small _ (by decide) _ (by simp))
    (fits_small _ (by decide) _ (by simp)) n m hn hm).mp e) (by decide)

/-- An empty piece turns 253 into 3. -/
example : LrcOf checksums [[1#8, 2#8]] 253 ∧ LrcOf checksums [[1#8, 2#8], []] 3 :=
  ⟨(C124_lrc_value checksums_has.2.1 (by decide) _ (fits_small _ (by decide) _ (by simp)) _).mpr (by decide),
    (C124_lrc_value checksums_has.2.1 (by decide) _ (fits_small _ (by decide) _ (by simp)) _).mpr (by decide)⟩

example : {p : List U8 | p.length = 2 ∧ ∃ c, LrcOf checksums [p ++ [9]] c ∧ LrcOf checksums32 [p, [9]] c}.ncard = 512 :=
  C124_lrc_count checksums_has.2.1 checksums32_has.2.1 (by decide) (by decide) 1 [9] (by decide) (by decide)

/-- Whole words; the last piece is a single byte. -/
example (n m : Nat) (hn : FletcherOf checksums 2 [[1#8, 2#8], [3#8, 4#8, 5#8]] n) (hm : FletcherOf checksums32 2 [[1#8, 2#8, 3#8, 4#8], [5#8]] m) : n = m :=
  C124_fletcher_agree checksums_has.2.2.1 checksums32_has.2.2.1 (by decide) (by decide) (.inr (.inl rfl)) [[1, 2], [3, 4, 5]] [[1, 2, 3, 4], [5]]
    (fits_small _ (by decide) _ (by simp)) (fits_small _ (by decide) _ (by simp)) (by simp [PiecesTaken]) (by simp [PiecesTaken]) (by decide) (by decide) rfl n m hn hm

/-- Half a word; the byte written apart is 5, or it is 0 and the words before are all ones. -/
example (n m a b : Nat) (hn : FletcherOf checksums 2 [[1#8, 2#8, 3#8] ++ [5#8]] n) (hm : FletcherOf checksums32 2 [[1#8, 2#8, 3#8], [5#8]] m)
    (ha : FletcherOf checksums 2 [[0xfe#8, 0xff#8, 1#8] ++ [0#8]] a) (hb : FletcherOf checksums32 2 [[0xfe#8, 0xff#8, 1#8], [0#8]] b) : n ≠ m ∧ a = b := by
  have key := fun p y => C124_fletcher_byte checksums_has.2.2.1 checksums32_has.2.2.1 (by decide) (by decide) (k := 2) (.inr (.inl rfl)) p y
  refine ⟨fun e => ?_, (key _ _ (fits_small _ (by decide) _ (by simp)) (fits_small _ (by decide) _ (by simp)) (by decide) _ _ ha hb).mpr (by decide)⟩
  have := (key _ _ (fits_small _ (by decide) _ (by simp)) (fits_small _ (by decide) _ (by simp)) (by decide) _ _ hn hm).mp e
  revert this
  decide

/-- 6000 bytes. -/
example : ∃ a h', Returns checksums Fletcher.path 0 (n! "New16") [] [] [obj Fletcher.path (n! "digest16") a] h' ∧
    Plays checksums Fletcher.path (n! "digest16") (n! "Sum16") a h' [.write [1#8], .write (List.replicate 6000 1#8)] .panic :=
  C124_fletcher_panics checksums_has.2.2.1 (by decide) [[1#8]] (List.replicate 6000 1#8) (fits_small _ (by decide) _ (by
    rintro p (_ | ⟨_, _ | ⟨_, ⟨⟩⟩⟩)
    · decide
    · rw [List.length_replicate]; decide)) (by rw [List.length_replicate]; decide) (by rw [List.length_replicate]; decide) []

/-- 253 after the first piece; the sum of the next is 7, so the LRC is 252. -/
example (m : Nat) (hm : LrcOf checksums ([[1#8, 2#8]] ++ [[7#8]]) m) : m = 252 := by
  have hn : LrcOf checksums [[1#8, 2#8]] 253 := (C124_lrc_value checksums_has.2.1 (by decide) _ (fits_small _ (by decide) _ (by simp)) _).mpr (by decide)
  have h := C124_lrc_next checksums_has.2.1 (by decide) _ [7] (fits_small _ (by decide) _ (by simp)) _ m hn hm
  have := ((C124_lrc_value checksums_has.2.1 (by decide) _ (fits_small _ (by decide) _ (by simp)) _).mp hm).1
  simp only [byteSum, List.map_cons, List.map_nil, List.sum_cons, List.sum_nil, show (7 : U8).toNat = 7 from rfl] at h
  omega

/-- The word 1 in two bytes, and a single byte that makes a word of its own. -/
example : FletcherOf checksums32 2 [[1#8, 0#8], [5#8]] 0x70006 :=
  (C124_fletcher_value checksums32_has.2.2.1 (by decide) (.inr (.inl rfl)) _ (fits_small _ (by decide) _ (by simp)) (by simp [PiecesTaken]) _).mpr (by decide)

end Source
