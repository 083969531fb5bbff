import Verif.Lemmas.HashHeap
import Verif.Props.Ripemd
import Verif.Props.Whirlpool
import Verif.Props.Checksum

/-!
# Property C77: hash objects and the caller's memory

Programs that create any number of objects, pass any slices of their memory to `Write` and `Sum`, and change that memory in between.
-/
namespace HashHeap
open GoHash HashSpec

theorem res_bind_assoc {α β γ : Type} (x : Res α) (f : α → Res β) (g : β → Res γ) :
    ((x >>= f) >>= g) = (x >>= fun a => f a >>= g) := by cases x <;> rfl

theorem ripemd_appends (v : Ripemd.Variant) : SumAppends (Ripemd.impl v) := by
  intro s inp
  simp only [Ripemd.impl, Ripemd.sum, res_bind_assoc, Res.pure_eq, Res.ok_bind, List.nil_append]

theorem whirlpool_appends : SumAppends Whirlpool.impl := by
  intro s inp
  simp only [Whirlpool.impl, Whirlpool.sum, res_bind_assoc, Res.pure_eq, Res.ok_bind, List.nil_append]

theorem bcc_appends : SumAppends Bcc.impl := fun _ _ => rfl
theorem lrc_appends : SumAppends Lrc.impl := fun _ _ => rfl
theorem fletcher16_appends : SumAppends Fletcher.impl16 := fun _ _ => rfl
theorem fletcher32_appends : SumAppends Fletcher.impl32 := fun _ _ => rfl
theorem fletcher64_appends : SumAppends Fletcher.impl64 := fun _ _ => rfl

/-- Every object of every program returns what a lone object returns for the same method calls, with the bytes the arguments had at
the time of the call; if the program panics, so does a lone object for some method calls. -/
def Lone {σ : Type} (I : Impl σ) : Prop := ∀ cs, LegalAll I start cs →
  (∀ w evs, runs I start cs = .ok (w, evs) → ∀ i, i < w.objs.length → run I (opsOf i evs) = .ok (outsOf i evs)) ∧
  (runs I start cs = .panic → ∃ ops, run I ops = .panic)

/-- No program panics, and the results of every object are those of the algorithm `A` for the bytes written to it. -/
def Behaves {σ : Type} (I : Impl σ) (A : Algo) : Prop := ∀ cs, LegalAll I start cs →
  ∃ w evs, runs I start cs = .ok (w, evs) ∧ ∀ i, i < w.objs.length → outsOf i evs = expect A (opsOf i evs)

section
variable {σ : Type} {I : Impl σ}

theorem lone_of (hI : SumAppends I) : Lone I := by
  intro cs hl
  constructor
  · intro w evs hr i hi
    have h := Inv_runs hI cs _ _ _ _ Inv_start hl hr
    rw [List.nil_append] at h
    obtain ⟨s0, h0, h1⟩ := h.2 i _ (List.getElem?_eq_getElem hi)
    simp [run, h0, h1]
  · intro hp
    by_contra hno
    have hno : ∀ ops, ∃ o, run I ops = .ok o := by
      intro ops
      cases h : run I ops with
      | ok o => exact ⟨o, rfl⟩
      | panic => exact absurd ⟨ops, h⟩ hno
    cases hn : I.new with
    | panic =>
      obtain ⟨o, ho⟩ := hno []
      simp [run, hn] at ho
    | ok s0 =>
      obtain ⟨w, ev, h⟩ := runs_ok hI hn (fun ops => by
        obtain ⟨o, ho⟩ := hno ops
        simp only [run, hn, Res.ok_bind] at ho
        cases h : runFrom I s0 ops with
        | ok r => exact ⟨r, rfl⟩
        | panic => rw [h] at ho; cases ho) cs _ _ Inv_start hl
      rw [h] at hp
      cases hp

theorem behaves_of (hI : SumAppends I) {A : Algo} {R : σ → List U8 → Prop} (hR : Refines I A (fun _ _ => True) R) :
    Behaves I A := by
  intro cs hl
  obtain ⟨h1, h2⟩ := lone_of hI cs hl
  cases h : runs I start cs with
  | panic =>
    obtain ⟨ops, ho⟩ := h2 h
    rw [hR.run ops (writesOk_true _ _)] at ho
    cases ho
  | ok q =>
    refine ⟨q.1, q.2, rfl, fun i hi => ?_⟩
    have := h1 _ _ h i hi
    rw [hR.run _ (writesOk_true _ _)] at this
    exact (Res.ok.inj this).symm
end

/-- **C77** For every object of this library: objects do not influence each other, and neither does the caller's memory after the call
or the memory `Sum` writes to. -/
theorem C77_lone : (∀ v, Lone (Ripemd.impl v)) ∧ Lone Whirlpool.impl ∧ Lone Bcc.impl ∧ Lone Lrc.impl ∧ Lone Fletcher.impl16 ∧
    Lone Fletcher.impl32 ∧ Lone Fletcher.impl64 :=
  ⟨fun v => lone_of (ripemd_appends v), lone_of whirlpool_appends, lone_of bcc_appends, lone_of lrc_appends,
    lone_of fletcher16_appends, lone_of fletcher32_appends, lone_of fletcher64_appends⟩

/-- **C77** The block hashes and BCC, for which all histories are right: no program panics and all results are right. -/
theorem C77_behaves : Behaves (Ripemd.impl Ripemd.v128) (RipemdSpec.algo RipemdSpec.ripemd128 16) ∧
    Behaves (Ripemd.impl Ripemd.v160) (RipemdSpec.algo RipemdSpec.ripemd160 20) ∧
    Behaves (Ripemd.impl Ripemd.v256) (RipemdSpec.algo RipemdSpec.ripemd256 32) ∧
    Behaves (Ripemd.impl Ripemd.v320) (RipemdSpec.algo RipemdSpec.ripemd320 40) ∧
    Behaves Whirlpool.impl WhirlpoolSpec.algo ∧ Behaves Bcc.impl ChecksumSpec.bcc :=
  ⟨behaves_of (ripemd_appends _) Ripemd.refines128, behaves_of (ripemd_appends _) Ripemd.refines160,
    behaves_of (ripemd_appends _) Ripemd.refines256, behaves_of (ripemd_appends _) Ripemd.refines320,
    behaves_of whirlpool_appends Whirlpool.refines, behaves_of bcc_appends Checksum.bcc_refines⟩

/-! ## What the calls do to the memory -/
section
variable {σ : Type} {I : Impl σ}

/-- **C77** `Sum(in)` for any object: the result has the bytes of `in` followed by the digest. With enough spare capacity it is the
array of `in`, and exactly the bytes after `in` are overwritten; otherwise it is new memory and nothing allocated before changes. -/
theorem C77_sum {w w' : World σ} {i extra : Nat} {b : Buf} {evs : List Event} (h : step I w (.sum i b extra) = .ok (w', evs)) :
    ∃ s s' d r, w.objs[i]? = some s ∧ I.sum s [] = .ok (s', d) ∧
      evs = [⟨i, .sum (Slice.content w.mem b.slice), .bytes (Slice.content w.mem b.slice ++ d), some r⟩] ∧
      Slice.content w'.mem r.slice = Slice.content w.mem b.slice ++ d ∧ r.len = b.len + d.length ∧
      (b.len + d.length ≤ b.cap → r.base = b.base ∧ r.cap = b.cap ∧ w'.top = w.top ∧
        ∀ y, ¬ (b.base + b.len ≤ y ∧ y < b.base + b.len + d.length) → w'.mem y = w.mem y) ∧
      (b.cap < b.len + d.length → r.base = w.top ∧ r.len ≤ r.cap ∧ w'.top = w.top + r.cap ∧ ∀ y, y < w.top → w'.mem y = w.mem y) := by
  simp only [step] at h
  cases hs : goIdx w.objs i with
  | panic => rw [hs] at h; cases h
  | ok s =>
    rw [hs] at h
    simp only [Res.ok_bind] at h
    cases hd : I.sum s [] with
    | panic => rw [hd] at h; cases h
    | ok q =>
      obtain ⟨s', d⟩ := q
      rw [hd] at h
      simp only [Res.ok_bind, Res.pure_eq, Res.ok.injEq, Prod.mk.injEq] at h
      obtain ⟨rfl, rfl⟩ := h
      refine ⟨s, s', d, (append w b d extra).2, goIdx_some hs, hd, by rw [append_content], append_content w b d extra, ?_, ?_, ?_⟩
      · unfold append; split <;> rfl
      · intro hc
        simp only [append, hc, if_true, true_and]
        intro y hy
        rcases Nat.lt_or_ge y (b.base + b.len) with h1 | h1
        · exact store_lt h1
        · exact store_ge (by omega)
      · intro hc
        have : ¬ (b.len + d.length ≤ b.cap) := by omega
        simp only [append, this, if_false, true_and]
        exact ⟨by omega, fun y hy => store_lt hy⟩

/-- **C77** No other method, and no creation of an object, changes the caller's memory. -/
theorem C77_readonly {w w' : World σ} {c : Call} {evs : List Event} (h : step I w c = .ok (w', evs))
    (hc : (∀ i b e, c ≠ .sum i b e) ∧ (∀ x v, c ≠ .set x v) ∧ ∀ n, c ≠ .make n) : w'.mem = w.mem ∧ w'.top = w.top := by
  cases c with
  | sum i b e => exact absurd rfl (hc.1 i b e)
  | set x v => exact absurd rfl (hc.2.1 x v)
  | make n => exact absurd rfl (hc.2.2 n)
  | new =>
    simp only [step] at h
    cases hn : I.new with
    | panic => rw [hn] at h; cases h
    | ok s => rw [hn] at h; cases h; exact ⟨rfl, rfl⟩
  | write i p =>
    simp only [step] at h
    cases hs : goIdx w.objs i with
    | panic => rw [hs] at h; cases h
    | ok s =>
      rw [hs] at h
      simp only [Res.ok_bind] at h
      cases hn : I.write s (Slice.content w.mem p.slice) with
      | panic => rw [hn] at h; cases h
      | ok q => rw [hn] at h; cases h; exact ⟨rfl, rfl⟩
  | reset i =>
    simp only [step] at h
    cases hs : goIdx w.objs i with
    | panic => rw [hs] at h; cases h
    | ok s =>
      rw [hs] at h
      simp only [Res.ok_bind] at h
      cases hn : I.reset s with
      | panic => rw [hn] at h; cases h
      | ok q => rw [hn] at h; cases h; exact ⟨rfl, rfl⟩
  | sumN i =>
    simp only [step] at h
    cases hs : goIdx w.objs i with
    | panic => rw [hs] at h; cases h
    | ok s => rw [hs] at h; cases h; exact ⟨rfl, rfl⟩
  | size i =>
    simp only [step] at h
    cases hs : goIdx w.objs i with
    | panic => rw [hs] at h; cases h
    | ok s => rw [hs] at h; cases h; exact ⟨rfl, rfl⟩
  | blockSize i =>
    simp only [step] at h
    cases hs : goIdx w.objs i with
    | panic => rw [hs] at h; cases h
    | ok s => rw [hs] at h; cases h; exact ⟨rfl, rfl⟩

/-- The call neither stores into the slice `t` nor passes `Sum` a slice whose spare capacity meets it. -/
def Spares (t : Slice) : Call → Prop
  | .set x _ => ¬ t.Has x
  | .sum _ b _ => ∀ y, t.Has y → ¬ (b.base + b.len ≤ y ∧ y < b.base + b.cap)
  | _ => True

/-- **C77** A slice (for instance one returned by `Sum`) keeps its bytes as long as the program does not store into it or pass `Sum` a
slice whose spare capacity meets it. -/
theorem C77_persist {t : Slice} : ∀ {cs : List Call} {w w' : World σ} {evs : List Event}, runs I w cs = .ok (w', evs) →
    t.base + t.len ≤ w.top → (∀ c ∈ cs, Spares t c) → Slice.content w'.mem t = Slice.content w.mem t
  | [], w, w', evs, h, _, _ => by cases h; rfl
  | c :: cs, w, w', evs, h, ht, hc => by
    simp only [runs] at h
    cases hs : step I w c with
    | panic => rw [hs] at h; cases h
    | ok q =>
      obtain ⟨w1, ev1⟩ := q
      rw [hs] at h
      simp only [Res.ok_bind] at h
      cases hr : runs I w1 cs with
      | panic => rw [hr] at h; cases h
      | ok q' =>
        obtain ⟨w2, ev2⟩ := q'
        rw [hr] at h
        cases h
        have key : w.top ≤ w1.top ∧ Slice.content w1.mem t = Slice.content w.mem t := by
          have hsp := hc c (by simp)
          by_cases hk : (∀ i b e, c ≠ .sum i b e) ∧ (∀ x v, c ≠ .set x v) ∧ ∀ n, c ≠ .make n
          · obtain ⟨h1, h2⟩ := C77_readonly hs hk
            rw [h1, h2]; exact ⟨Nat.le_refl _, rfl⟩
          · cases c with
            | sum i b e =>
              obtain ⟨s, s', d, r, _, _, _, _, hrl, h1, h2⟩ := C77_sum hs
              rcases Nat.lt_or_ge b.cap (b.len + d.length) with h3 | h3
              · obtain ⟨_, _, h4, h5⟩ := h2 h3
                exact ⟨by omega, content_congr fun y hy => h5 y (by have := hy.2; omega)⟩
              · obtain ⟨_, _, h4, h5⟩ := h1 h3
                exact ⟨by omega, content_congr fun y hy => h5 y (fun h6 => hsp y hy ⟨h6.1, by omega⟩)⟩
            | set x v =>
              cases hs
              refine ⟨Nat.le_refl _, content_congr fun y hy => ?_⟩
              have : y ≠ x := fun e => hsp (e ▸ hy)
              rcases Nat.lt_or_ge y x with h1 | h1
              · exact store_lt h1
              · exact store_ge (by simp; omega)
            | make n =>
              cases hs
              exact ⟨Nat.le_add_right _ _, content_congr fun y hy => store_lt (by have := hy.2; omega)⟩
            | _ => simp at hk
        rw [C77_persist hr (by have := key.1; omega) (fun c h => hc c (by simp [h])), key.2]

end

/-- Two `Sum` calls with the same spare capacity return the same slice: the second result replaces the first, and `Write` in between
takes the bytes its argument has after the first. -/
def Overwrites {σ : Type} (I : Impl σ) (A : Algo) : Prop := ∀ cs w evs, LegalAll I start cs → runs I start cs = .ok (w, evs) →
  ∀ i b p e e', i < w.objs.length → b.Alloc w.top → p.Alloc w.top → b.len + A.size ≤ b.cap →
    ∃ w' x y r, runs I w [.sum i b e, .write i p, .sum i b e'] = .ok (w',
        [⟨i, .sum x, .bytes (x ++ A.digest (logFrom [] (opsOf i evs))), some r⟩, ⟨i, .write y, .wrote y.length false, none⟩,
         ⟨i, .sum x, .bytes (x ++ A.digest (logFrom [] (opsOf i evs) ++ y)), some r⟩]) ∧
      x = Slice.content w.mem b.slice ∧ (p.slice.Disjoint ⟨b.base + b.len, A.size⟩ → y = Slice.content w.mem p.slice) ∧
      Slice.content w'.mem r.slice = x ++ A.digest (logFrom [] (opsOf i evs) ++ y)

theorem overwrites_of {σ : Type} {I : Impl σ} (hI : SumAppends I) {A : Algo} {R : σ → List U8 → Prop}
    (hR : Refines I A (fun _ _ => True) R) (hd : ∀ m, (A.digest m).length = A.size) : Overwrites I A := by
  intro cs w evs hl hr i b p e e' hi hb hp hroom
  have inv := Inv_runs hI cs _ _ _ _ Inv_start hl hr
  rw [List.nil_append] at inv
  obtain ⟨s0, h0, h1⟩ := inv.2 i _ (List.getElem?_eq_getElem hi)
  obtain ⟨s0', h0', hR0⟩ := hR.new
  rw [h0] at h0'
  cases h0'
  obtain ⟨s', h2, hR1⟩ := hR.runFrom (opsOf i evs) s0 [] hR0 (writesOk_true _ _)
  rw [h1] at h2
  obtain rfl := (congrArg Prod.fst (Res.ok.inj h2) :)
  generalize logFrom [] (opsOf i evs) = log at *
  dsimp only at hR1
  obtain ⟨s1, hs1, hR2⟩ := hR.sum _ log [] hR1
  have hap : ∀ (w : World σ) (d : List U8) (e : Nat), d.length = A.size →
      append w b d e = ({ w with mem := store w.mem (b.base + b.len) d }, ⟨b.base, b.len + A.size, b.cap⟩) := by
    intro w d e hd'
    simp only [append, hd', hroom, if_true]
  have e1 : step I w (.sum i b e) = .ok (⟨store w.mem (b.base + b.len) (A.digest log), w.top, w.objs.set i s1⟩,
      [⟨i, .sum (Slice.content w.mem b.slice), .bytes (Slice.content w.mem b.slice ++ A.digest log),
        some ⟨b.base, b.len + A.size, b.cap⟩⟩]) := by
    have hc := append_content w b (A.digest log) e
    rw [hap _ _ _ (hd _)] at hc
    simp only [step, goIdx_lt hi, hs1, Res.ok_bind, List.nil_append, hap _ _ _ (hd _), hc, Res.pure_eq]
  generalize hm1 : store w.mem (b.base + b.len) (A.digest log) = m1 at e1
  obtain ⟨s2, hs2, hR3⟩ := hR.write _ log (Slice.content m1 p.slice) hR2 trivial
  have e2 : step I ⟨m1, w.top, w.objs.set i s1⟩ (.write i p) = .ok (⟨m1, w.top, w.objs.set i s2⟩,
      [⟨i, .write (Slice.content m1 p.slice), .wrote (Slice.content m1 p.slice).length false, none⟩]) := by
    have hx : goIdx (w.objs.set i s1) i = .ok s1 := by rw [goIdx_lt (by simpa using hi)]; simp
    simp only [step, hx, hs2, Res.ok_bind, Res.pure_eq, List.set_set]
  generalize hy : Slice.content m1 p.slice = y at *
  obtain ⟨s3, hs3, hR4⟩ := hR.sum _ (log ++ y) [] hR3
  have hx : Slice.content m1 b.slice = Slice.content w.mem b.slice := by
    rw [← hm1]; exact content_congr fun z hz => store_lt hz.2
  have hc3 := append_content ⟨m1, w.top, w.objs.set i s2⟩ b (A.digest (log ++ y)) e'
  rw [hap _ _ _ (hd _)] at hc3
  simp only [hx] at hc3
  have e3 : step I ⟨m1, w.top, w.objs.set i s2⟩ (.sum i b e') = .ok
      (⟨store m1 (b.base + b.len) (A.digest (log ++ y)), w.top, w.objs.set i s3⟩,
      [⟨i, .sum (Slice.content w.mem b.slice), .bytes (Slice.content w.mem b.slice ++ A.digest (log ++ y)),
        some ⟨b.base, b.len + A.size, b.cap⟩⟩]) := by
    have hx' : goIdx (w.objs.set i s2) i = .ok s2 := by rw [goIdx_lt (by simpa using hi)]; simp
    simp only [step, hx', hs3, Res.ok_bind, List.nil_append, hap _ _ _ (hd _), hc3, Res.pure_eq, List.set_set, hx]
  refine ⟨⟨store m1 (b.base + b.len) (A.digest (log ++ y)), w.top, w.objs.set i s3⟩, Slice.content w.mem b.slice, y,
    ⟨b.base, b.len + A.size, b.cap⟩, ?_, rfl, ?_, hc3⟩
  · simp only [runs, e1, e2, e3, Res.ok_bind, Res.pure_eq, List.cons_append, List.nil_append, List.append_nil]
  · intro hdis
    rw [← hy, ← hm1]
    refine content_congr fun z hz => ?_
    have := hdis z
    simp only [Slice.Has, not_and] at this hz
    rcases Nat.lt_or_ge z (b.base + b.len) with h | h
    · exact store_lt h
    · refine store_ge ?_
      rw [hd]
      have := this hz h
      omega

/-- **C77** The results of two `Sum` calls into the same spare capacity share their memory. -/
theorem C77_overwrites : Overwrites (Ripemd.impl Ripemd.v128) (RipemdSpec.algo RipemdSpec.ripemd128 16) ∧
    Overwrites (Ripemd.impl Ripemd.v160) (RipemdSpec.algo RipemdSpec.ripemd160 20) ∧
    Overwrites (Ripemd.impl Ripemd.v256) (RipemdSpec.algo RipemdSpec.ripemd256 32) ∧
    Overwrites (Ripemd.impl Ripemd.v320) (RipemdSpec.algo RipemdSpec.ripemd320 40) ∧
    Overwrites Whirlpool.impl WhirlpoolSpec.algo ∧ Overwrites Bcc.impl ChecksumSpec.bcc :=
  ⟨overwrites_of (ripemd_appends _) Ripemd.refines128 fun _ => Ripemd.out_length _, overwrites_of (ripemd_appends _) Ripemd.refines160 fun _ => Ripemd.out_length _,
    overwrites_of (ripemd_appends _) Ripemd.refines256 fun _ => Ripemd.out_length _, overwrites_of (ripemd_appends _) Ripemd.refines320 fun _ => Ripemd.out_length _,
    overwrites_of whirlpool_appends Whirlpool.refines fun _ => Whirlpool.bytes_length _, overwrites_of bcc_appends Checksum.bcc_refines fun _ => rfl⟩

/-- A program: 8 bytes of memory, two objects; a byte is changed after it was written to the first object; two digests of the first
object go to the same spare byte; the digest of the second does not fit and goes to new memory. -/
def exampleCalls : List Call := [.make 8, .new, .new, .set 4 0x11#8, .write 0 ⟨4, 1, 4⟩, .set 4 0x22#8, .write 1 ⟨4, 1, 4⟩,
  .sum 0 ⟨0, 1, 2⟩ 0, .write 0 ⟨4, 1, 4⟩, .sum 0 ⟨0, 1, 2⟩ 0, .sum 1 ⟨0, 2, 2⟩ 3]

example : LegalAll Bcc.impl start exampleCalls := by
  simp [exampleCalls, LegalAll, Legal, step, start, append, Buf.Alloc, Bcc.impl, goIdx]

example : ∃ w evs, runs Bcc.impl start exampleCalls = .ok (w, evs) ∧
    outsOf 0 evs = [.wrote 1 false, .bytes [0#8, 0x11#8], .wrote 1 false, .bytes [0#8, 0x33#8]] ∧
    outsOf 1 evs = [.wrote 1 false, .bytes [0#8, 0x33#8, 0x22#8]] ∧
    (evs.filterMap (·.ret)) = [⟨0, 2, 2⟩, ⟨0, 2, 2⟩, ⟨8, 3, 6⟩] := by
  refine ⟨_, _, rfl, ?_⟩
  decide +kernel

end HashHeap
