import Verif.Model.Recover
import Verif.Spec.Chunks
import Verif.Props.Fletcher16
import Verif.Props.ChecksumErrors

/-!
# The checksum objects, for every history with panics recovered
-/
namespace ChunkSpec
open GoHash HashSpec ChecksumSpec

variable {σ : Type} {I : Impl σ} {A : Chunked}

/-- The object in state `s`, to which `cs` were written, follows `A`. -/
structure Tracks (I : Impl σ) (A : Chunked) (R : σ → List (List U8) → Prop) : Prop where
  write : ∀ s cs p, R s cs → if A.accepts p then ∃ s', I.write s p = .ok (s', p.length, false) ∧ R s' (cs ++ [p]) else I.write s p = .panic
  sum : ∀ s cs inp, R s cs → I.sum s inp = .ok (s, inp ++ A.digest cs)
  sumN : ∀ s cs, R s cs → I.sumN s = A.num cs
  reset : ∀ s cs, R s cs → ∃ s', I.reset s = .ok s' ∧ R s' []
  size : ∀ s, I.size s = A.size
  blockSize : ∀ s, I.blockSize s = A.blockSize

theorem Tracks.run {R : σ → List (List U8) → Prop} (h : Tracks I A R) (ops : List Op) :
    ∀ (s : σ) (cs : List (List U8)), R s cs → runFromRec I s ops = saidFrom A cs ops := by
  induction ops with
  | nil => intro s cs _; rfl
  | cons op ops ih =>
    intro s cs hs
    cases op with
    | write p =>
      have hw := h.write s cs p hs
      rw [runFromRec, saidFrom]
      by_cases hp : A.accepts p
      · rw [if_pos hp] at hw
        obtain ⟨s', h1, h2⟩ := hw
        have e : stepRec I s (.write p) = (s', some (.wrote p.length false)) := by simp [stepRec, step, h1]
        rw [if_pos hp, e, ih s' _ h2]
      · rw [if_neg hp] at hw
        have e : stepRec I s (.write p) = (s, none) := by simp [stepRec, step, hw]
        rw [if_neg hp, e, ih s _ hs]
    | sum inp =>
      have e : stepRec I s (.sum inp) = (s, some (.bytes (inp ++ A.digest cs))) := by simp [stepRec, step, h.sum s cs inp hs]
      rw [runFromRec, saidFrom, e, ih s _ hs]
    | sumN =>
      have e : stepRec I s .sumN = (s, some (match A.num cs with | some n => .num n | none => .unit)) := by
        rw [← h.sumN s cs hs]
        simp only [stepRec, step]
        cases I.sumN s <;> rfl
      rw [runFromRec, saidFrom, e, ih s _ hs]
      rfl
    | reset =>
      obtain ⟨s', h1, h2⟩ := h.reset s cs hs
      have e : stepRec I s .reset = (s', some .unit) := by simp [stepRec, step, h1]
      rw [runFromRec, saidFrom, e, ih s' _ h2]
    | size =>
      have e : stepRec I s .size = (s, some (.num A.size)) := by simp [stepRec, step, h.size]
      rw [runFromRec, saidFrom, e, ih s _ hs]
    | blockSize =>
      have e : stepRec I s .blockSize = (s, some (.num A.blockSize)) := by simp [stepRec, step, h.blockSize]
      rw [runFromRec, saidFrom, e, ih s _ hs]

/-! ## Objects that keep the contract -/

theorem runFromRec_of_run {s s' : σ} {ops : List Op} {os : List Out} (h : runFrom I s ops = .ok (s', os)) : runFromRec I s ops = os.map some := by
  induction ops generalizing s s' os with
  | nil => simp only [runFrom, Res.ok.injEq, Prod.mk.injEq] at h; rw [← h.2]; rfl
  | cons op ops ih =>
    rw [runFrom] at h
    rcases h1 : step I s op with ⟨s1, o⟩ | _
    · rcases h2 : runFrom I s1 ops with ⟨s2, os'⟩ | _
      · simp only [h1, h2, Res.ok_bind, Res.pure_eq, Res.ok.injEq, Prod.mk.injEq] at h
        rw [← h.2, runFromRec, show stepRec I s op = (s1, some o) by simp [stepRec, h1], List.map_cons, ← ih h2]
      · simp [h1, h2] at h
    · simp [h1] at h

theorem saidFrom_stream (A : Algo) (ops : List Op) : ∀ cs, saidFrom (stream A) cs ops = (expectFrom A cs.flatten ops).map some := by
  induction ops with
  | nil => intro cs; rfl
  | cons op ops ih =>
    intro cs
    cases op with
    | write p => rw [saidFrom, if_pos (show (stream A).accepts p = true from rfl), ih, List.flatten_append, List.flatten_singleton]; rfl
    | reset => rw [saidFrom, ih]; rfl
    | _ => rw [saidFrom, ih]; rfl

theorem stream_run {A : Algo} (h : ∀ ops, GoHash.run I ops = .ok (expect A ops)) {s : σ} (hs : I.new = .ok s) (ops : List Op) :
    runFromRec I s ops = said (stream A) ops := by
  have := h ops
  rw [GoHash.run, hs] at this
  rcases h2 : runFrom I s ops with ⟨s', os⟩ | _
  · simp only [h2, Res.ok_bind, Res.pure_eq, Res.ok.injEq] at this
    rw [runFromRec_of_run h2, said, saidFrom_stream, this]
    rfl
  · simp [h2] at this

/-! ## LRC -/

theorem alternating_snoc (cs : List (List U8)) (p : List U8) : alternating (cs ++ [p]) = - (alternating cs + byteSum p) := by
  induction cs with
  | nil => simp [alternating]
  | cons c cs ih =>
    rw [List.cons_append, alternating, alternating, ih, List.length_append, List.length_singleton]
    split <;> split <;> omega

theorem tracks_lrc : Tracks Lrc.impl lrc fun s cs => s = BitVec.ofInt 8 (alternating cs) where
  write s cs p h := by
    rw [if_pos (show lrc.accepts p = true from rfl)]
    refine ⟨Lrc.update s p, rfl, ?_⟩
    rw [alternating_snoc, BitVec.ofInt_neg, BitVec.ofInt_add, ← h, BitVec.ofInt_natCast, Checksum.lrc_update]
  sum s cs inp h := by rw [h]; rfl
  sumN s cs h := by
    rw [h]
    simp only [Lrc.impl, lrc, BitVec.toNat_ofInt]
    rfl
  reset s cs _ := ⟨0#8, rfl, rfl⟩
  size _ := rfl
  blockSize _ := rfl

/-! ## Fletcher -/

theorem tracks_fletcher32 : Tracks Fletcher.impl32 (fletcher 2) fun s cs => Fletcher.R32 s (cs.flatMap (words 2)) where
  write s cs p h := by
    rw [if_pos (show (fletcher 2).accepts p = true from rfl)]
    obtain ⟨d', e, h'⟩ := Fletcher.update32_ok s _ p h
    exact ⟨d', by show (Fletcher.update32 s p >>= _) = _; rw [e]; rfl, by simpa using h'⟩
  sum s cs inp h := Checksum.contract_digest Checksum.C42_sum_is_bigendian.2.2.2.1 (Checksum.sumN32 h) inp
  sumN s cs h := Checksum.sumN32 h
  reset s cs _ := ⟨_, rfl, rfl⟩
  size _ := rfl
  blockSize _ := rfl

theorem tracks_fletcher64 : Tracks Fletcher.impl64 (fletcher 4) fun s cs => Fletcher.R64 s (cs.flatMap (words 4)) where
  write s cs p h := by
    rw [if_pos (show (fletcher 4).accepts p = true from rfl)]
    obtain ⟨d', e, h'⟩ := Fletcher.update64_ok s _ p h
    exact ⟨d', by show (Fletcher.update64 s p >>= _) = _; rw [e]; rfl, by simpa using h'⟩
  sum s cs inp h := Checksum.contract_digest Checksum.C42_sum_is_bigendian.2.2.2.2 (Checksum.sumN64 h) inp
  sumN s cs h := Checksum.sumN64 h
  reset s cs _ := ⟨_, rfl, rfl⟩
  size _ := rfl
  blockSize _ := rfl

theorem tracks_fletcher16 : Tracks Fletcher.impl16 fletcher16 fun s cs => Fletcher.Holds s (cs.foldl Fletcher16Spec.write (0, 0)) where
  write s cs p h := by
    by_cases hp : Fletcher16Spec.Accepts p
    · rw [if_pos (show fletcher16.accepts p = true from decide_eq_true hp)]
      obtain ⟨d', h1, h2⟩ := Fletcher.write16_accepts h hp
      exact ⟨d', by show (Fletcher.update16 s p >>= _) = _; rw [h1]; rfl, by simpa using h2⟩
    · rw [if_neg (show ¬ fletcher16.accepts p = true by simpa [fletcher16] using hp)]
      show (Fletcher.update16 s p >>= _) = _
      rw [Fletcher.write16_panics s hp]
      rfl
  sum s cs inp h := by
    have : Fletcher.impl16.sum s inp = .ok (s, inp ++ [s.b, s.a]) := rfl
    rw [this]
    simp only [fletcher16, ← h.1, ← h.2.1]
    simp
  sumN s cs h := by
    have : Fletcher.impl16.sumN s = some (Fletcher.sum16 s).toNat := rfl
    rw [this, Checksum.sum16_toNat, h.1, h.2.1]
    rfl
  reset s cs _ := ⟨⟨0, 0⟩, rfl, rfl, rfl, by decide, by decide⟩
  size _ := rfl
  blockSize _ := rfl

/-! ## From a new object on -/

theorem lrc_run {s : U8} (hs : Lrc.impl.new = .ok s) (ops : List Op) : runFromRec Lrc.impl s ops = said lrc ops := by
  cases hs
  exact tracks_lrc.run ops _ [] rfl

theorem fletcher32_run {s : Fletcher.Digest32} (hs : Fletcher.impl32.new = .ok s) (ops : List Op) :
    runFromRec Fletcher.impl32 s ops = said (fletcher 2) ops := by
  cases hs
  exact tracks_fletcher32.run ops _ [] rfl

theorem fletcher64_run {s : Fletcher.Digest64} (hs : Fletcher.impl64.new = .ok s) (ops : List Op) :
    runFromRec Fletcher.impl64 s ops = said (fletcher 4) ops := by
  cases hs
  exact tracks_fletcher64.run ops _ [] rfl

theorem fletcher16_run {s : Fletcher.Digest16} (hs : Fletcher.impl16.new = .ok s) (ops : List Op) :
    runFromRec Fletcher.impl16 s ops = said fletcher16 ops := by
  cases hs
  exact tracks_fletcher16.run ops _ [] ⟨rfl, rfl, by decide, by decide⟩

end ChunkSpec
