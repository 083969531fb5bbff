import Verif.Props.SourceErrors
import Verif.Props.SourceRipemd
import Verif.Props.SourceWhirlpool
import Verif.Props.HashStructure

/-!
# C113: digests computed by the text of the hash packages, on any machines

Programs `P` and `Q` may differ in everything but the texts of the packages, even in the size of `int` and in how slices grow.
-/
namespace Source
open GoLang HashSpec BlockSpec

/-- Running the text: a new object is made in some memory, the chunks `ps` are written to it, and `Sum(nil)`, called with an empty slice,
then returns the bytes `d`. -/
def Digests (P : Prog) (path ty new : Name) (ps : List (List U8)) (d : List U8) : Prop :=
  ∃ h a h' outs, Returns P path 0 new [] h [obj path ty a] h' ∧
    Plays P path ty 0 a h' (ps.map .write ++ [.sum []]) (.ok (outs ++ [.bytes d]))

theorem callable_sum {P : Prog} {ps : List (List U8)} (hf : FitsWord P ps) : Callable P.W 0 (ps.map .write ++ [.sum []]) :=
  ⟨fun p hp => hf p (by simpa using hp), fun h => by simp at h⟩

theorem last_bytes {o o' : List GoHash.Out} {d e : List U8} (h : o ++ [GoHash.Out.bytes d] = o' ++ [.bytes e]) : d = e := by
  have := List.append_inj_right' h rfl
  simpa using this

/-- The digest is a function of the concatenation of the chunks. -/
theorem digests_iff {P : Prog} {path ty new : Name} {σ : Type} {I : GoHash.Impl σ} {rep : σ → Val} {Inv : σ → Prop}
    (hI : Implements P path ty new 0 I rep Inv) {ps : List (List U8)} (hf : FitsWord P ps) {digest : List U8 → List U8}
    (hd : GoHash.run I (ps.map .write ++ [.sum []]) = .ok (ps.map (fun c => .wrote c.length false) ++ [.bytes ([] ++ digest ps.flatten)]))
    (d : List U8) : Digests P path ty new ps d ↔ d = digest ps.flatten := by
  have hc := callable_sum hf
  constructor
  · rintro ⟨h, a, h', outs, hr, hp⟩
    obtain ⟨a₂, h₂, hr₂, hp₂⟩ := hI.plays h
    have := hr.unique hr₂
    simp only [List.cons.injEq, Val.ptr.injEq, and_true, true_and] at this
    obtain ⟨rfl, rfl⟩ := this
    have := hd.symm.trans ((hp₂ _ _ hc).mp hp)
    simp only [Res.ok.injEq] at this
    exact (last_bytes this).symm
  · rintro rfl
    obtain ⟨a, h', hr', hp⟩ := hI.plays []
    exact ⟨[], a, h', _, hr', (hp _ _ hc).mpr hd⟩

/-! ## ripemd -/

/-- `Sum` of a new object of package ripemd with that many bits after writing `ps`. -/
def RipemdOf (P : Prog) (bits : Nat) (ps : List (List U8)) (d : List U8) : Prop :=
  match bits with
  | 128 => Digests P Ripemd.path Ripemd.ty (n! "New128") ps d
  | 160 => Digests P Ripemd.path Ripemd.ty (n! "New160") ps d
  | 256 => Digests P Ripemd.path Ripemd.ty (n! "New256") ps d
  | 320 => Digests P Ripemd.path Ripemd.ty (n! "New320") ps d
  | _ => False

/-- The published hashes. -/
def ripemdSpec (bits : Nat) (m : List U8) : List U8 :=
  match bits with
  | 128 => RipemdSpec.ripemd128 m
  | 160 => RipemdSpec.ripemd160 m
  | 256 => RipemdSpec.ripemd256 m
  | _ => RipemdSpec.ripemd320 m

/-- **C113** The digest that the text of package ripemd computes is the published function of the bytes written, whatever the chunks, the
machine and the memory. -/
theorem C113_ripemd {P : Prog} (hP : RipemdHosts P) {bits : Nat} (hb : bits = 128 ∨ bits = 160 ∨ bits = 256 ∨ bits = 320) (ps : List (List U8))
    (hf : FitsWord P ps) (d : List U8) : RipemdOf P bits ps d ↔ d = ripemdSpec bits ps.flatten := by
  rcases hb with rfl | rfl | rfl | rfl
  · exact digests_iff (C93_ripemd128 hP) hf (_root_.Ripemd.C47_digest128 ps []) d
  · exact digests_iff (C93_ripemd160 hP) hf (_root_.Ripemd.C47_digest160 ps []) d
  · exact digests_iff (C93_ripemd256 hP) hf (_root_.Ripemd.C47_digest256 ps []) d
  · exact digests_iff (C93_ripemd320 hP) hf (_root_.Ripemd.C47_digest320 ps []) d

/-- A collision of the compression function met while hashing `m` and `m'`. -/
def RipemdCollision (bits : Nat) (m m' : List U8) : Prop :=
  match bits with
  | 128 => Collision RipemdSpec.compress128 RipemdSpec.iv4 (blocks (RipemdSpec.pad m)) (blocks (RipemdSpec.pad m'))
  | 160 => Collision RipemdSpec.compress160 RipemdSpec.iv5 (blocks (RipemdSpec.pad m)) (blocks (RipemdSpec.pad m'))
  | 256 => Collision RipemdSpec.compress256 (RipemdSpec.iv4, RipemdSpec.iv4') (blocks (RipemdSpec.pad m)) (blocks (RipemdSpec.pad m'))
  | _ => Collision RipemdSpec.compress320 (RipemdSpec.iv5, RipemdSpec.iv5') (blocks (RipemdSpec.pad m)) (blocks (RipemdSpec.pad m'))

/-- **C113** If two runs of the text, on any machines, give one digest for different byte strings of fewer than 2^61 bytes, then hashing them
meets a collision of the compression function. -/
theorem C113_ripemd_collision {P Q : Prog} (hP : RipemdHosts P) (hQ : RipemdHosts Q) {bits : Nat}
    (hb : bits = 128 ∨ bits = 160 ∨ bits = 256 ∨ bits = 320) (ps qs : List (List U8)) (hf : FitsWord P ps) (hg : FitsWord Q qs) (d : List U8)
    (hp : RipemdOf P bits ps d) (hq : RipemdOf Q bits qs d) (hl : ps.flatten.length < 2 ^ 61) (hl' : qs.flatten.length < 2 ^ 61)
    (hne : ps.flatten ≠ qs.flatten) : RipemdCollision bits ps.flatten qs.flatten := by
  rw [C113_ripemd hP hb ps hf] at hp
  rw [C113_ripemd hQ hb qs hg] at hq
  have one {v : _root_.Ripemd.Variant} {digest : List U8 → List U8} (hd : ∀ (cs : List (List U8)) (inp : List U8), GoHash.run (_root_.Ripemd.impl v) (cs.map .write ++ [.sum inp]) =
      .ok (cs.map (fun c => .wrote c.length false) ++ [.bytes (inp ++ digest cs.flatten)])) (m : List U8) (e : d = digest m) :
      GoHash.run (_root_.Ripemd.impl v) [.write m, .sum []] = .ok [.wrote m.length false, .bytes d] := by
    have := hd [m] []
    simpa [e] using this
  rcases hb with rfl | rfl | rfl | rfl
  · exact _root_.Ripemd.C53_ripemd128_collision _ _ d hl hl' hne (one _root_.Ripemd.C47_digest128 _ hp) (one _root_.Ripemd.C47_digest128 _ hq)
  · exact _root_.Ripemd.C53_ripemd160_collision _ _ d hl hl' hne (one _root_.Ripemd.C47_digest160 _ hp) (one _root_.Ripemd.C47_digest160 _ hq)
  · exact _root_.Ripemd.C53_ripemd256_collision _ _ d hl hl' hne (one _root_.Ripemd.C47_digest256 _ hp) (one _root_.Ripemd.C47_digest256 _ hq)
  · exact _root_.Ripemd.C53_ripemd320_collision _ _ d hl hl' hne (one _root_.Ripemd.C47_digest320 _ hp) (one _root_.Ripemd.C47_digest320 _ hq)

/-- What follows for an object that the machine `I` continues as after `m` and `g`. -/
theorem forged_plays {Q : Prog} {path ty new : Name} {σ : Type} {I : GoHash.Impl σ} {rep : σ → Val} {Inv : σ → Prop}
    (hI : Implements Q path ty new 0 I rep Inv) {s : σ} (hs : Inv s) {a : Nat} {h : List Val} (ha : h[a]? = some (rep s)) {m g : List U8}
    {ps : List (List U8)} (hg : FitsWord Q ps) {digest : List U8 → List U8}
    (hd : GoHash.run I ((m :: g :: ps).map .write ++ [.sum []]) =
      .ok ((m :: g :: ps).map (fun c => .wrote c.length false) ++ [.bytes ([] ++ digest (m :: g :: ps).flatten)]))
    (he : ∃ s' outs, GoHash.runFrom I s (ps.map .write ++ [.sum []]) = .ok (s', outs) ∧
      GoHash.run I (.write m :: .write g :: (ps.map .write ++ [.sum []])) = .ok (.wrote m.length false :: .wrote g.length false :: outs))
    (r : Res (List GoHash.Out)) : Plays Q path ty 0 a h (ps.map .write ++ [.sum []]) r ↔
      r = .ok (ps.map (fun c => .wrote c.length false) ++ [.bytes (digest (m ++ g ++ ps.flatten))]) := by
  obtain ⟨s', outs, h1, h2⟩ := he
  have := hI.playsFrom hs ha _ (callable_sum hg)
  rw [h1] at this
  have e := h2.symm.trans hd
  simp only [List.map_cons, List.cons_append, Res.ok.injEq, List.cons.injEq, true_and, List.nil_append, List.flatten_cons, ← List.append_assoc m] at e
  subst e
  exact ⟨fun hr => hr.unique this, fun hr => hr ▸ this⟩

/-- The function that the package calls for a block, and the number of words of the digest. -/
def ripemdHash (bits : Nat) : Name × Nat :=
  match bits with
  | 128 => (n! "hash128", 4)
  | 160 => (n! "hash160", 5)
  | 256 => (n! "hash256", 8)
  | _ => (n! "hash320", 10)

/-- **C113** Length extension. Somebody knows the digest that some machine computed for `m`, and the length of `m`, but not `m`. An object
with that digest as state, put anywhere in the memory of another program, answers every further writing with the digest of the
(unknown) message `m`, its padding and what was written. -/
theorem C113_ripemd_extension {P Q : Prog} (hP : RipemdHosts P) (hQ : RipemdHosts Q) {bits : Nat}
    (hb : bits = 128 ∨ bits = 160 ∨ bits = 256 ∨ bits = 320) (m d : List U8) (hf : FitsWord P [m]) (hm : RipemdOf P bits [m] d)
    (block : List U8) (hbl : block.length = 64) (h : List Val) (a : Nat)
    (ha : h[a]? = some (Ripemd.rep (ripemdHash bits).1 (ripemdHash bits).2 (_root_.Ripemd.forged d m.length block)))
    (ps : List (List U8)) (hg : FitsWord Q ps) (r : Res (List GoHash.Out)) :
    Plays Q Ripemd.path Ripemd.ty 0 a h (ps.map .write ++ [.sum []]) r ↔
      r = .ok (ps.map (fun c => .wrote c.length false) ++ [.bytes (ripemdSpec bits (m ++ _root_.Ripemd.glue m.length ++ ps.flatten))]) := by
  rw [C113_ripemd hP hb [m] hf] at hm
  simp only [List.flatten_cons, List.flatten_nil, List.append_nil] at hm
  have one {v : _root_.Ripemd.Variant} {digest : List U8 → List U8} (hd : ∀ (cs : List (List U8)) (inp : List U8), GoHash.run (_root_.Ripemd.impl v) (cs.map .write ++ [.sum inp]) =
      .ok (cs.map (fun c => .wrote c.length false) ++ [.bytes (inp ++ digest cs.flatten)])) (e : d = digest m) :
      GoHash.run (_root_.Ripemd.impl v) [.write m, .sum []] = .ok [.wrote m.length false, .bytes d] := by
    have := hd [m] []
    simpa [e] using this
  have inv (n : Nat) (hn : n ≤ 10) (e : d.length = 4 * n) : Ripemd.Inv (_root_.Ripemd.forged d m.length block) := by
    refine ⟨?_, hbl, by simp [_root_.Ripemd.forged]⟩
    simp only [_root_.Ripemd.forged, _root_.Ripemd.digestWords, List.length_append, List.length_map, List.length_range, List.length_replicate]
    omega
  obtain ⟨x1, x2, x3, x4⟩ := _root_.Ripemd.C70_ripemd
  rcases hb with rfl | rfl | rfl | rfl
  · exact forged_plays (C93_ripemd128 hQ) (inv 4 (by omega) (by rw [hm]; rfl)) ha hg (_root_.Ripemd.C47_digest128 _ [])
      (x1 m d block _ hbl (one _root_.Ripemd.C47_digest128 hm)) r
  · exact forged_plays (C93_ripemd160 hQ) (inv 5 (by omega) (by rw [hm]; rfl)) ha hg (_root_.Ripemd.C47_digest160 _ [])
      (x2 m d block _ hbl (one _root_.Ripemd.C47_digest160 hm)) r
  · exact forged_plays (C93_ripemd256 hQ) (inv 8 (by omega) (by rw [hm]; rfl)) ha hg (_root_.Ripemd.C47_digest256 _ [])
      (x3 m d block _ hbl (one _root_.Ripemd.C47_digest256 hm)) r
  · exact forged_plays (C93_ripemd320 hQ) (inv 10 (by omega) (by rw [hm]; rfl)) ha hg (_root_.Ripemd.C47_digest320 _ [])
      (x4 m d block _ hbl (one _root_.Ripemd.C47_digest320 hm)) r

/-! ## whirlpool -/

/-- `Sum` of a new object of package whirlpool after writing `ps`. -/
abbrev WhirlpoolOf (P : Prog) := Digests P Whirlpool.path Whirlpool.ty (n! "New")

/-- **C113** The same for package whirlpool and byte strings of fewer than 2^64 bytes. -/
theorem C113_whirlpool {P : Prog} (hP : WhirlpoolHosts P) (ps : List (List U8)) (hf : FitsWord P ps) (hl : ps.flatten.length < 2 ^ 64)
    (d : List U8) : WhirlpoolOf P ps d ↔ d = WhirlpoolSpec.whirlpool ps.flatten :=
  digests_iff (C95_whirlpool hP) hf (_root_.Whirlpool.C50_digest ps [] hl) d

/-- **C113** The same reduction of collisions for package whirlpool. -/
theorem C113_whirlpool_collision {P Q : Prog} (hP : WhirlpoolHosts P) (hQ : WhirlpoolHosts Q) (ps qs : List (List U8)) (hf : FitsWord P ps)
    (hg : FitsWord Q qs) (d : List U8) (hp : WhirlpoolOf P ps d) (hq : WhirlpoolOf Q qs d) (hl : ps.flatten.length < 2 ^ 64)
    (hl' : qs.flatten.length < 2 ^ 64) (hne : ps.flatten ≠ qs.flatten) :
    Collision WhirlpoolSpec.compress WhirlpoolSpec.zeroMat (blocks (WhirlpoolSpec.pad ps.flatten)) (blocks (WhirlpoolSpec.pad qs.flatten)) := by
  rw [C113_whirlpool hP ps hf hl] at hp
  rw [C113_whirlpool hQ qs hg hl'] at hq
  have one (m : List U8) (hl : m.length < 2 ^ 64) (e : d = WhirlpoolSpec.whirlpool m) :
      GoHash.run _root_.Whirlpool.impl [.write m, .sum []] = .ok [.wrote m.length false, .bytes d] := by
    have := _root_.Whirlpool.C50_digest [m] [] (by simpa using hl)
    simpa [e] using this
  exact _root_.Whirlpool.C53_whirlpool_collision _ _ d hl hl' hne (one _ hl hp) (one _ hl' hq)

/-- **C113** Length extension of the text of package whirlpool. -/
theorem C113_whirlpool_extension {P Q : Prog} (hP : WhirlpoolHosts P) (hQ : WhirlpoolHosts Q) (m d : List U8) (hf : FitsWord P [m])
    (hm : WhirlpoolOf P [m] d) (block : List U8) (hbl : block.length = 64) (h : List Val) (a : Nat)
    (ha : h[a]? = some (Whirlpool.rep (_root_.Whirlpool.forged d m.length block))) (ps : List (List U8)) (hg : FitsWord Q ps)
    (hl : (m ++ _root_.Whirlpool.glue m.length ++ ps.flatten).length < 2 ^ 64) (r : Res (List GoHash.Out)) :
    Plays Q Whirlpool.path Whirlpool.ty 0 a h (ps.map .write ++ [.sum []]) r ↔
      r = .ok (ps.map (fun c => .wrote c.length false) ++
        [.bytes (WhirlpoolSpec.whirlpool (m ++ _root_.Whirlpool.glue m.length ++ ps.flatten))]) := by
  have hlm : m.length < 2 ^ 64 := by simp at hl; omega
  rw [C113_whirlpool hP [m] hf (by simpa using hlm)] at hm
  simp only [List.flatten_cons, List.flatten_nil, List.append_nil] at hm
  refine forged_plays (C95_whirlpool hQ) ?_ ha hg (_root_.Whirlpool.C50_digest _ [] (by simpa [Nat.add_assoc] using hl))
    (_root_.Whirlpool.C70_whirlpool m d block _ hbl ?_) r
  · exact ⟨by simp [_root_.Whirlpool.forged, _root_.Whirlpool.beWords], hbl, by simp [_root_.Whirlpool.forged]⟩
  · have := _root_.Whirlpool.C50_digest [m] [] (by simpa using hlm)
    simpa [hm] using this

/-! ## The hypotheses can be met -/

/-- The packages of `ripemdProg` on a machine with 32-bit integers. -/
def ripemdProg32 : Prog := { ripemdProg with W := 32, grow := fun n => 2 * n }

theorem ripemdProg32_hosts : RipemdHosts ripemdProg32 :=
  ⟨⟨_, Ripemd.text, by kernel_rfl⟩, ⟨_, Bytes.text, by kernel_rfl⟩, rfl, by kernel_rfl, by kernel_rfl, by decide⟩

theorem fits_short {P : Prog} (hW : 32 ≤ P.W) {ps : List (List U8)} (hs : ∀ p ∈ ps, p.length < 2 ^ 31) : FitsWord P ps := fun p hp => by
  have h1 := hs p hp
  have : (2 : Int) ^ 31 ≤ 2 ^ (P.W - 1) := by
    exact_mod_cast Nat.pow_le_pow_right (n := 2) (by decide) (by omega : 31 ≤ P.W - 1)
  omega

/-- RIPEMD-160 of "abc" on both machines, written in different pieces. -/
example : RipemdOf ripemdProg 160 [ascii "a", ascii "bc"] (RipemdSpec.ripemd160 (ascii "abc")) ∧
    RipemdOf ripemdProg32 160 [ascii "ab", [], ascii "c"] (RipemdSpec.ripemd160 (ascii "abc")) :=
  ⟨(C113_ripemd ripemdProg_hosts (.inr (.inl rfl)) _ (fits_short (by decide) (by decide)) _).mpr rfl,
   (C113_ripemd ripemdProg32_hosts (.inr (.inl rfl)) _ (fits_short (by decide) (by decide)) _).mpr rfl⟩

/-- A memory with one object, forged from the digest of a secret of at most 1000 bytes: written to, it gives a digest of the secret with more
behind it. -/
example (secret : List U8) (hs : secret.length ≤ 1000) (r : Res (List GoHash.Out)) :
    Plays ripemdProg32 Ripemd.path Ripemd.ty 0 0
      [Ripemd.rep (n! "hash160") 5 (_root_.Ripemd.forged (RipemdSpec.ripemd160 secret) secret.length (List.replicate 64 0#8))]
      [.write (ascii "more"), .sum []] r ↔
    r = .ok [.wrote 4 false, .bytes (RipemdSpec.ripemd160 (secret ++ _root_.Ripemd.glue secret.length ++ ascii "more"))] :=
  C113_ripemd_extension ripemdProg_hosts ripemdProg32_hosts (.inr (.inl rfl)) secret _ (fits_short (by decide) (by simp; omega))
    ((C113_ripemd ripemdProg_hosts (.inr (.inl rfl)) _ (fits_short (by decide) (by simp; omega)) _).mpr (by simp [ripemdSpec]))
    (List.replicate 64 0#8) (by rw [List.length_replicate]) _ 0 rfl [ascii "more"] (fits_short (by decide) (by decide)) r

/-- A run that gave one digest for two different short texts would have met a collision of the compression function. -/
example (d : List U8) (hp : RipemdOf ripemdProg 128 [ascii "a", ascii "b"] d) (hq : RipemdOf ripemdProg32 128 [ascii "ba"] d) :
    Collision RipemdSpec.compress128 RipemdSpec.iv4 (blocks (RipemdSpec.pad (ascii "ab"))) (blocks (RipemdSpec.pad (ascii "ba"))) :=
  C113_ripemd_collision ripemdProg_hosts ripemdProg32_hosts (.inl rfl) _ _ (fits_short (by decide) (by decide)) (fits_short (by decide) (by decide)) d hp hq
    (by decide) (by decide) (by decide)

/-- The packages of `whirlpoolProg` on a machine with 32-bit integers. -/
def whirlpoolProg32 : Prog := { whirlpoolProg with W := 32, grow := fun n => 2 * n }

theorem whirlpoolProg32_hosts : WhirlpoolHosts whirlpoolProg32 :=
  ⟨⟨_, Whirlpool.text, by kernel_rfl⟩, ⟨_, Bytes.text, by kernel_rfl⟩, rfl, by kernel_rfl, by decide⟩

/-- Whirlpool of "abc" on both machines, written in different pieces. -/
example : WhirlpoolOf whirlpoolProg [ascii "a", ascii "bc"] (WhirlpoolSpec.whirlpool (ascii "abc")) ∧
    WhirlpoolOf whirlpoolProg32 [ascii "ab", [], ascii "c"] (WhirlpoolSpec.whirlpool (ascii "abc")) :=
  ⟨(C113_whirlpool whirlpoolProg_hosts _ (fits_short (by decide) (by decide)) (by decide) _).mpr rfl,
   (C113_whirlpool whirlpoolProg32_hosts _ (fits_short (by decide) (by decide)) (by decide) _).mpr rfl⟩

/-- The same for package whirlpool. -/
example (d : List U8) (hp : WhirlpoolOf whirlpoolProg [ascii "a", ascii "b"] d) (hq : WhirlpoolOf whirlpoolProg32 [ascii "ba"] d) :
    Collision WhirlpoolSpec.compress WhirlpoolSpec.zeroMat (blocks (WhirlpoolSpec.pad (ascii "ab"))) (blocks (WhirlpoolSpec.pad (ascii "ba"))) := by
  have e : [ascii "a", ascii "b"].flatten = ascii "ab" := by decide
  have e' : [ascii "ba"].flatten = ascii "ba" := by decide
  rw [← e, ← e']
  exact C113_whirlpool_collision whirlpoolProg_hosts whirlpoolProg32_hosts _ _ (fits_short (by decide) (by decide)) (fits_short (by decide) (by decide)) d hp hq
    (by decide) (by decide) (by decide)

/-- An object forged from the Whirlpool digest of a secret of at most 1000 bytes. -/
example (secret : List U8) (hs : secret.length ≤ 1000) (r : Res (List GoHash.Out)) :
    Plays whirlpoolProg32 Whirlpool.path Whirlpool.ty 0 0
      [Whirlpool.rep (_root_.Whirlpool.forged (WhirlpoolSpec.whirlpool secret) secret.length (List.replicate 64 0#8))]
      [.write (ascii "more"), .sum []] r ↔
    r = .ok [.wrote 4 false, .bytes (WhirlpoolSpec.whirlpool (secret ++ _root_.Whirlpool.glue secret.length ++ ascii "more"))] :=
  C113_whirlpool_extension whirlpoolProg_hosts whirlpoolProg32_hosts secret _ (fits_short (by decide) (by simp; omega))
    ((C113_whirlpool whirlpoolProg_hosts _ (fits_short (by decide) (by simp; omega)) (by simp; omega) _).mpr (by simp))
    (List.replicate 64 0#8) (by rw [List.length_replicate]) _ 0 rfl [ascii "more"] (fits_short (by decide) (by decide))
    (by
      rw [List.length_append, List.length_append]
      have : ([ascii "more"].flatten : List U8).length = 4 := by decide
      have : (_root_.Whirlpool.glue secret.length).length ≤ 128 := by
        rw [_root_.Whirlpool.glue, List.length_append, List.length_cons, List.length_replicate, BlockSpec.beBytes_length]
        omega
      omega) r

end Source
