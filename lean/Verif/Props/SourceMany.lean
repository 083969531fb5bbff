import Verif.Lang.Many
import Verif.Lemmas.Chunks
import Verif.Props.SourceRipemd
import Verif.Props.SourceWhirlpool

/-!
# Any number of hash and checksum objects in one program, run

C104: a program makes any number of objects of the ten types, calls their methods in any order, with any slices, recovers from panics, and
does what it likes with the rest of memory. Each object answers exactly as its own history tells.
-/
namespace Source
open GoLang GoHash HashSpec ChecksumSpec ChunkSpec

/-- The types of hash and checksum objects of the repository. -/
inductive Kind where
  | bcc | lrc | fletcher16 | fletcher32 | fletcher64 | ripemd128 | ripemd160 | ripemd256 | ripemd320 | whirlpool

/-- Their names in the code. -/
def Kind.names : Kind → HashType
  | .bcc => ⟨Bcc.path, n! "digest", n! "New", n! "Sum8"⟩
  | .lrc => ⟨Lrc.path, n! "digest", n! "New", n! "Sum8"⟩
  | .fletcher16 => ⟨Fletcher.path, n! "digest16", n! "New16", n! "Sum16"⟩
  | .fletcher32 => ⟨Fletcher.path, n! "digest32", n! "New32", n! "Sum32"⟩
  | .fletcher64 => ⟨Fletcher.path, n! "digest64", n! "New64", n! "Sum64"⟩
  | .ripemd128 => ⟨Ripemd.path, Ripemd.ty, n! "New128", 0⟩
  | .ripemd160 => ⟨Ripemd.path, Ripemd.ty, n! "New160", 0⟩
  | .ripemd256 => ⟨Ripemd.path, Ripemd.ty, n! "New256", 0⟩
  | .ripemd320 => ⟨Ripemd.path, Ripemd.ty, n! "New320", 0⟩
  | .whirlpool => ⟨Whirlpool.path, Whirlpool.ty, n! "New", 0⟩

/-- What they compute. -/
def Kind.spec : Kind → Chunked
  | .bcc => stream ChecksumSpec.bcc
  | .lrc => ChunkSpec.lrc
  | .fletcher16 => ChunkSpec.fletcher16
  | .fletcher32 => ChunkSpec.fletcher 2
  | .fletcher64 => ChunkSpec.fletcher 4
  | .ripemd128 => stream (RipemdSpec.algo RipemdSpec.ripemd128 16)
  | .ripemd160 => stream (RipemdSpec.algo RipemdSpec.ripemd160 20)
  | .ripemd256 => stream (RipemdSpec.algo RipemdSpec.ripemd256 32)
  | .ripemd320 => stream (RipemdSpec.algo RipemdSpec.ripemd320 40)
  | .whirlpool => stream WhirlpoolSpec.algo

/-- The program has the package with the text of the repository, and what that imports. -/
def Kind.In (P : Prog) : Kind → Prop
  | .bcc => P.Has Bcc.path [Bcc.src] [] ∧ 32 ≤ P.W
  | .lrc => P.Has Lrc.path [Lrc.src] [] ∧ 32 ≤ P.W
  | .fletcher16 | .fletcher32 | .fletcher64 => P.Has Fletcher.path fletcherTexts [] ∧ 32 ≤ P.W
  | .ripemd128 | .ripemd160 | .ripemd256 | .ripemd320 => RipemdHosts P
  | .whirlpool => WhirlpoolHosts P

/-- How the objects look in memory. -/
def HashVal (v : Val) : Prop := (∃ x, v = .u8 x) ∨ ∃ p t fs, v = .struct p t fs ∧ p ∈ [Fletcher.path, Ripemd.path, Whirlpool.path]

theorem makes (P : Prog) (k : Kind) (hk : k.In P) : Makes P HashVal k.names (said k.spec) := by
  cases k with
  | bcc => exact ⟨_, _, _, _, C87_bcc P hk.1 hk.2, fun s => .inl ⟨_, rfl⟩, fun s hs ops => stream_run Checksum.C34_bcc_stream hs ops⟩
  | lrc => exact ⟨_, _, _, _, C87_lrc P hk.1 hk.2, fun s => .inl ⟨_, rfl⟩, fun s hs ops => lrc_run hs ops⟩
  | fletcher16 => exact ⟨_, _, _, _, C87_fletcher16 P hk.1 hk.2, fun s => .inr ⟨_, _, _, rfl, .head _⟩, fun s hs ops => fletcher16_run hs ops⟩
  | fletcher32 => exact ⟨_, _, _, _, C87_fletcher32 P hk.1 hk.2, fun s => .inr ⟨_, _, _, rfl, .head _⟩, fun s hs ops => fletcher32_run hs ops⟩
  | fletcher64 => exact ⟨_, _, _, _, C87_fletcher64 P hk.1 hk.2, fun s => .inr ⟨_, _, _, rfl, .head _⟩, fun s hs ops => fletcher64_run hs ops⟩
  | ripemd128 => exact ⟨_, _, _, _, C93_ripemd128 hk, fun s => .inr ⟨_, _, _, rfl, .tail _ (.head _)⟩, fun s hs ops => stream_run _root_.Ripemd.C46_stream128 hs ops⟩
  | ripemd160 => exact ⟨_, _, _, _, C93_ripemd160 hk, fun s => .inr ⟨_, _, _, rfl, .tail _ (.head _)⟩, fun s hs ops => stream_run _root_.Ripemd.C46_stream160 hs ops⟩
  | ripemd256 => exact ⟨_, _, _, _, C93_ripemd256 hk, fun s => .inr ⟨_, _, _, rfl, .tail _ (.head _)⟩, fun s hs ops => stream_run _root_.Ripemd.C46_stream256 hs ops⟩
  | ripemd320 => exact ⟨_, _, _, _, C93_ripemd320 hk, fun s => .inr ⟨_, _, _, rfl, .tail _ (.head _)⟩, fun s hs ops => stream_run _root_.Ripemd.C46_stream320 hs ops⟩
  | whirlpool => exact ⟨_, _, _, _, C95_whirlpool hk, fun s => .inr ⟨_, _, _, rfl, .tail _ (.tail _ (.head _))⟩, fun s hs ops => stream_run _root_.Whirlpool.C49_stream hs ops⟩

section
variable {P : Prog} {h h' : List Val} {objs : List (Nat × Kind)} {es : List (Event Kind)}

/-- **C104** In every run of a program that starts without hash objects, every object that is made answers its calls exactly as `said`
tells for the calls made on it: other objects, of the same type or not, and the rest of the program leave no trace. -/
theorem C104_each (hu : Uses P Kind.names (Kind.In P) h [] es h' objs) {a : Nat} {k : Kind} (hk : .made a k ∈ es) :
    outsOf a es = said k.spec (opsOf a es) :=
  (hu.all (makes P) (fun _ _ => []) (fun _ ho => by cases ho) .nil).2.1 a k hk

/-- **C104** No two objects have the same address. The objects at the end are those that were made. -/
theorem C104_distinct (hu : Uses P Kind.names (Kind.In P) h [] es h' objs) : (madeIn es).Nodup ∧ objs.map Prod.fst = (madeIn es).reverse := by
  obtain ⟨_, _, h3, _, h5, _⟩ := hu.all (makes P) (fun _ _ => []) (fun _ ho => by cases ho) .nil
  exact ⟨h3, by simpa using h5⟩

/-- **C104** Whatever has happened, every call that Go allows has exactly one outcome: nothing gets stuck or runs for ever. It changes no
memory that was there, except the object and, if it is `Sum`, the array into which it appends; the argument holds the same bytes as before;
and no result is a slice of an object, so that the program never gets hold of one. -/
theorem C104_goes (hu : Uses P Kind.names (Kind.In P) h [] es h' objs) {a : Nat} {k : Kind} (ha : (a, k) ∈ objs) {v : Val} {op : Op}
    (hv : Free objs v) (hg : Given P.W h' v op) (hN : op = .sumN → k.names.sumN ≠ 0) :
    ∃ o h₁, Call P k.names a v h' op o h₁ ∧ (∀ o' h₂, Call P k.names a v h' op o' h₂ → o' = o ∧ h₂ = h₁) ∧
      (∀ i, i < h'.length → i ≠ a → (∀ p, op = .sum p → base v ≠ some i) → h₁[i]? = h'[i]?) ∧ Given P.W h₁ v op ∧
      ∀ vs h₂, Returns P k.names.path k.names.ty (k.names.method op) (k.names.args a v op) h' vs h₂ → ∀ w ∈ vs, Free objs w := by
  obtain ⟨_, _, _, _, _, F, hl, _⟩ := hu.all (makes P) (fun _ _ => []) (fun _ ho => by cases ho) .nil
  obtain ⟨o, h₁, g, hc, _, _, hs⟩ := (hl _ ha).step (hv _ ha) hg hN
  refine ⟨o, h₁, hc, fun o' h₂ hc' => ?_, fun i hi hne ht => hs.rest i hi hne ?_, hs.arg, fun vs h₂ hr w hw x hx hb => ?_⟩
  · obtain ⟨rfl, rfl⟩ := hc.unique hc'
    exact ⟨rfl, rfl⟩
  · cases op <;> simp only [target, ne_eq, reduceCtorEq, not_false_eq_true]
    exact (ht _ rfl).symm
  · exact hv x hx (hs.results vs h₂ hr w hw x.1 (hl x hx).lt hb)

/-- **C104** And an object of any type can be made, at a new address; nothing else changes. -/
theorem C104_new {k : Kind} (hk : k.In P) (h : List Val) :
    ∃ h', Returns P k.names.path 0 k.names.new [] h [obj k.names.path k.names.ty h.length] h' ∧ h <+: h' := by
  obtain ⟨h', hr, _, hp⟩ := (makes P k hk).new h
  exact ⟨h', hr, hp⟩

/-- **C104** For BCC, RIPEMD and Whirlpool, what an object says is what the interface contract prescribes for the published function. -/
theorem C104_stream (A : Algo) (ops : List Op) : said (stream A) ops = (expect A ops).map some := saidFrom_stream A ops []

end

/-! ## Examples -/

/-- A BCC and an LRC object, used in turn with the same slice, which the program makes in between; memory is in the end as told. -/
example : Uses checksums Kind.names (Kind.In checksums) [] [] [.made 0 .bcc, .made 1 .lrc, .called 0 (.write [5, 6]) (some (.wrote 2 false)),
    .called 1 (.write [5, 6]) (some (.wrote 2 false)), .called 0 .sumN (some (.num 3)), .called 1 .sumN (some (.num 245))]
    [.u8 3, .u8 245, .arr [.u8 5, .u8 6]] [(1, .lrc), (0, .bcc)] := by
  have free : Free [(1, Kind.lrc), (0, Kind.bcc)] (.slice 2 [] 0 2 2) := by
    intro o ho
    simp only [List.mem_cons, List.not_mem_nil, or_false] at ho
    rcases ho with rfl | rfl <;> simp [base]
  have none : Free [(1, Kind.lrc), (0, Kind.bcc)] .nil := fun o _ => by simp [base]
  have given (x y : Val) : Given checksums.W [x, y, .arr [.u8 5, .u8 6]] (.slice 2 [] 0 2 2) (.write [5, 6]) :=
    ⟨.inr ⟨2, [], 0, 2, _, _, rfl, rfl, rfl, by decide, by decide, rfl⟩, by decide⟩
  refine .new (h₁ := [.u8 0]) ⟨⟨_, Bcc.text, by kernel_rfl⟩, by decide⟩ (.one (n := 20) (by kernel_rfl)) ?_
  refine .new (h₁ := [.u8 0, .u8 0]) ⟨⟨_, Lrc.text, by kernel_rfl⟩, by decide⟩ (.one (n := 20) (by kernel_rfl)) ?_
  refine .own (h₁ := [.u8 0, .u8 0, .arr [.u8 5, .u8 6]]) ?_ ?_
  · intro o ho
    simp only [List.mem_cons, List.not_mem_nil, or_false] at ho
    rcases ho with rfl | rfl <;> rfl
  refine .call (h₁ := [.u8 3, .u8 0, .arr [.u8 5, .u8 6]]) (k := .bcc) (v := .slice 2 [] 0 2 2) (by simp) free (given _ _) (by simp)
    ⟨[.int 2, .nil], .one (n := 20) (by kernel_rfl), .nil, rfl, by simp⟩ ?_
  refine .call (h₁ := [.u8 3, .u8 245, .arr [.u8 5, .u8 6]]) (k := .lrc) (v := .slice 2 [] 0 2 2) (by simp) free (given _ _) (by simp)
    ⟨[.int 2, .nil], .one (n := 20) (by kernel_rfl), .nil, rfl, by simp⟩ ?_
  refine .call (h₁ := [.u8 3, .u8 245, .arr [.u8 5, .u8 6]]) (k := .bcc) (v := .nil) (by simp) none trivial (by decide)
    ⟨[.u8 3], .one (n := 20) (by kernel_rfl), .u8 3, rfl, rfl⟩ ?_
  refine .call (h₁ := [.u8 3, .u8 245, .arr [.u8 5, .u8 6]]) (k := .lrc) (v := .nil) (by simp) none trivial (by decide)
    ⟨[.u8 245], .one (n := 20) (by kernel_rfl), .u8 245, rfl, rfl⟩ .done

/-- A program that has all ten types. -/
def allHashes : Prog :=
  { W := 64, pkgs := [Bcc.pkg, Lrc.pkg, Fletcher.pkg, Ripemd.pkg, Whirlpool.pkg, Bytes.pkg], other := fun _ _ => none, std := stdlib,
    native := fun _ _ _ => stuck, grow := id }

theorem allHashes_in (k : Kind) : k.In allHashes := by
  have r : RipemdHosts allHashes := ⟨⟨_, Ripemd.text, by kernel_rfl⟩, ⟨_, Bytes.text, by kernel_rfl⟩, rfl, by kernel_rfl, by kernel_rfl, by decide⟩
  have w : WhirlpoolHosts allHashes := ⟨⟨_, Whirlpool.text, by kernel_rfl⟩, ⟨_, Bytes.text, by kernel_rfl⟩, rfl, by kernel_rfl, by decide⟩
  have f : allHashes.Has Fletcher.path fletcherTexts [] ∧ 32 ≤ allHashes.W := ⟨⟨_, Fletcher.text, by kernel_rfl⟩, by decide⟩
  cases k with
  | bcc => exact ⟨⟨_, Bcc.text, by kernel_rfl⟩, by decide⟩
  | lrc => exact ⟨⟨_, Lrc.text, by kernel_rfl⟩, by decide⟩
  | fletcher16 | fletcher32 | fletcher64 => exact f
  | ripemd128 | ripemd160 | ripemd256 | ripemd320 => exact r
  | whirlpool => exact w

/-- LRC of two writes: the first has the wrong sign. Fletcher-32 of two writes: each is filled up with zeros. Fletcher-16 forgets a `Write`
that panics. -/
example : said ChunkSpec.lrc [.write [1], .write [2], .sumN] = [some (.wrote 1 false), some (.wrote 1 false), some (.num 255)] ∧
    said (ChunkSpec.fletcher 2) [.write [1], .write [2], .sumN] = [some (.wrote 1 false), some (.wrote 1 false), some (.num (4 * 65536 + 3))] ∧
    said ChunkSpec.fletcher16 [.write [1], .write (List.replicate 6000 7), .sumN] = [some (.wrote 1 false), none, some (.num 257)] := by
  refine ⟨by decide, by decide, ?_⟩
  have : ChunkSpec.fletcher16.accepts (List.replicate 6000 7) = false := by
    simp only [ChunkSpec.fletcher16, Fletcher16Spec.Accepts, List.length_replicate]
    decide
  simp only [said, saidFrom, this]
  decide

end Source
