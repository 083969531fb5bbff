import Verif.Lang.Fuel
import Verif.Lang.Std

/-!
# What is said about programs

`Returns` and `Panics` are the outcomes of a call with enough fuel. `IsBytes` relates a byte slice to the bytes in it.
-/
namespace GoLang

/-- The call returns these results, and memory is then `h'`. -/
def Returns (P : Prog) (path t f : Name) (args h : List Val) (vs h' : List Val) : Prop :=
  ∃ N, ∀ n, N ≤ n → run P n path t f args h = .ok vs ⟨h', []⟩

/-- The call panics, and memory is then `h'`. -/
def Panics (P : Prog) (path t f : Name) (args h : List Val) (h' : List Val) : Prop :=
  ∃ N, ∀ n, N ≤ n → run P n path t f args h = .panic h'

/-- One run that returns is enough: more fuel does not change the outcome. -/
theorem Returns.one {P : Prog} {path t f : Name} {args h vs h' : List Val} {n : Nat} (hr : run P n path t f args h = .ok vs ⟨h', []⟩) :
    Returns P path t f args h vs h' := ⟨n, fun _ hm => run_mono hm (by simp) hr⟩

theorem Panics.one {P : Prog} {path t f : Name} {args h h' : List Val} {n : Nat} (hr : run P n path t f args h = .panic h') :
    Panics P path t f args h h' := ⟨n, fun _ hm => run_mono hm (by simp) hr⟩

/-- There is at most one outcome. -/
theorem Returns.unique {P : Prog} {path t f : Name} {args h vs h₁ ws h₂ : List Val} (a : Returns P path t f args h vs h₁)
    (b : Returns P path t f args h ws h₂) : vs = ws ∧ h₁ = h₂ := by
  obtain ⟨N, a⟩ := a
  obtain ⟨M, b⟩ := b
  have := (a (N + M) (by omega)).symm.trans (b (N + M) (by omega))
  simpa using this

theorem Returns.not_panics {P : Prog} {path t f : Name} {args h vs h₁ h₂ : List Val} (a : Returns P path t f args h vs h₁) :
    ¬ Panics P path t f args h h₂ := by
  rintro ⟨M, b⟩
  obtain ⟨N, a⟩ := a
  have := (a (N + M) (by omega)).symm.trans (b (N + M) (by omega))
  simp at this

/-- A function that returns or panics with fuel above `N`. -/
theorem Returns.of {P : Prog} {path t f : Name} {args h vs h' : List Val} (N : Nat)
    (a : ∀ n, N ≤ n → run P (n + 1) path t f args h = .ok vs ⟨h', []⟩) : Returns P path t f args h vs h' :=
  ⟨N + 1, fun n hn => by obtain ⟨m, rfl⟩ : ∃ m, n = m + 1 := ⟨n - 1, by omega⟩; exact a m (by omega)⟩

theorem Panics.of {P : Prog} {path t f : Name} {args h h' : List Val} (N : Nat)
    (a : ∀ n, N ≤ n → run P (n + 1) path t f args h = .panic h') : Panics P path t f args h h' :=
  ⟨N + 1, fun n hn => by obtain ⟨m, rfl⟩ : ∃ m, n = m + 1 := ⟨n - 1, by omega⟩; exact a m (by omega)⟩

theorem Returns.add {P : Prog} {path t f : Name} {args h vs h' : List Val} (k N : Nat)
    (a : ∀ n, N ≤ n → run P (n + k) path t f args h = .ok vs ⟨h', []⟩) : Returns P path t f args h vs h' :=
  ⟨N + k, fun n hn => by obtain ⟨m, rfl⟩ : ∃ m, n = m + k := ⟨n - k, by omega⟩; exact a m (by omega)⟩

theorem Panics.add {P : Prog} {path t f : Name} {args h h' : List Val} (k N : Nat)
    (a : ∀ n, N ≤ n → run P (n + k) path t f args h = .panic h') : Panics P path t f args h h' :=
  ⟨N + k, fun n hn => by obtain ⟨m, rfl⟩ : ∃ m, n = m + k := ⟨n - k, by omega⟩; exact a m (by omega)⟩

/-! ## Packages given as text -/

/-- The files with these texts. -/
def parseAll : List (List String) → Option (List File)
  | [] => some []
  | t :: l => (parse t).bind fun f => (parseAll l).map fun fs => f :: fs

/-- The package made of files with these texts. `boxed` tells which local variables of which functions have their address taken. -/
def loadText (path : Name) (texts : List (List String)) (boxed : List (Name × List Name)) : Option Pkg :=
  (parseAll texts).bind fun fs => loadPkg stdlib path fs boxed

/-- The package of that path in the program is the one with these texts. -/
def Prog.Has (P : Prog) (path : Name) (texts : List (List String)) (boxed : List (Name × List Name)) : Prop :=
  ∃ k, loadText path texts boxed = some k ∧ findPkg path P.pkgs = some k

theorem Prog.Has.find {P : Prog} {path : Name} {texts : List (List String)} {boxed : List (Name × List Name)} {k : Pkg}
    (h : P.Has path texts boxed) (hk : loadText path texts boxed = some k) : findPkg path P.pkgs = some k := by
  obtain ⟨k', h₁, h₂⟩ := h
  rw [hk] at h₁
  cases h₁
  exact h₂

/-- The same for a package whose variables `vars` live in memory, which is `mem` when the program starts. -/
def loadTextMem (path : Name) (texts : List (List String)) (boxed : List (Name × List Name)) (vars : List Name) : Option (Pkg × List Val) :=
  (parseAll texts).bind fun fs => loadMem stdlib path fs boxed vars

def Prog.HasMem (P : Prog) (path : Name) (texts : List (List String)) (boxed : List (Name × List Name)) (vars : List Name) (mem : List Val) : Prop :=
  ∃ k, loadTextMem path texts boxed vars = some (k, mem) ∧ findPkg path P.pkgs = some k

theorem Prog.HasMem.find {P : Prog} {path : Name} {texts : List (List String)} {boxed : List (Name × List Name)} {vars : List Name} {mem mem' : List Val} {k : Pkg}
    (h : P.HasMem path texts boxed vars mem) (hk : loadTextMem path texts boxed vars = some (k, mem')) : findPkg path P.pkgs = some k ∧ mem = mem' := by
  obtain ⟨k', h₁, h₂⟩ := h
  rw [hk] at h₁
  cases h₁
  exact ⟨h₂, rfl⟩

/-! ## Byte slices -/

/-- In memory `h`, the slice or string `v` holds these bytes. -/
def HasBytes (h : List Val) (v : Val) (b : List (BitVec 8)) : Prop := bytesIn v ⟨h, []⟩ = .ok b ⟨h, []⟩

theorem valBytes_eq {l : List Val} {b : List (BitVec 8)} (h : valBytes l = some b) : l = b.map .u8 := by
  induction l generalizing b with
  | nil => simp [valBytes] at h; subst h; rfl
  | cons v l ih =>
    cases v <;> simp [valBytes] at h
    obtain ⟨c, hc, rfl⟩ := h
    simp [ih hc]

/-- What a slice that holds bytes is like. -/
theorem HasBytes.cases {h : List Val} {v : Val} {b : List (BitVec 8)} (hb : HasBytes h v b) :
    v = .str b ∨ (v = .nil ∧ b = []) ∨ ∃ a p off cap o l, v = .slice a p off b.length cap ∧ h[a]? = some o ∧ getPath o p = some (.arr l) ∧
      off + b.length ≤ l.length ∧ (l.drop off).take b.length = b.map .u8 := by
  unfold HasBytes at hb
  cases v <;> simp only [bytesIn, go, Out.ok.injEq, reduceCtorEq] at hb
  · exact .inl (by rw [hb])
  · exact .inr (.inl ⟨rfl, hb.symm⟩)
  · rename_i a p off len cap
    refine .inr (.inr ⟨a, p, off, cap, ?_⟩)
    cases ho : h[a]? with
    | none => simp [ho, go] at hb
    | some o =>
      cases hg : getPath o p with
      | none => simp [ho, hg, go] at hb
      | some w =>
        cases w <;> simp [ho, hg, go] at hb
        rename_i l
        refine ⟨o, l, ?_⟩
        by_cases hl : off + len ≤ l.length
        · simp only [hl, if_true, go] at hb
          cases hv : valBytes ((l.drop off).take len) with
          | none => simp [hv, go] at hb
          | some b' =>
            simp only [hv, go, Out.ok.injEq, and_true] at hb
            subst hb
            have he := valBytes_eq hv
            have hlen : b'.length = len := by
              have := congrArg List.length he
              simp at this
              omega
            subst hlen
            exact ⟨rfl, rfl, hg, hl, he⟩
        · simp [hl, go] at hb

theorem HasBytes.unique {h : List Val} {v : Val} {b c : List (BitVec 8)} (hb : HasBytes h v b) (hc : HasBytes h v c) : b = c := by
  unfold HasBytes at hb hc
  have := hb.symm.trans hc
  simpa using this

theorem HasBytes.plain {h : List Val} {v : Val} {b : List (BitVec 8)} (hb : HasBytes h v b) : Plain v := by
  rcases hb.cases with rfl | ⟨rfl, _⟩ | ⟨_, _, _, _, _, _, rfl, _⟩ <;> simp [Plain]

theorem HasBytes.len {h : List Val} {v : Val} {b : List (BitVec 8)} (hb : HasBytes h v b) : lenOf v = pure (b.length : Int) := by
  rcases hb.cases with rfl | ⟨rfl, rfl⟩ | ⟨_, _, _, _, _, _, rfl, _⟩ <;> simp [lenOf]

theorem getPath_append (v : Val) (p q : List Sel) : getPath v (p ++ q) = (getPath v p).bind fun w => getPath w q := by
  induction p generalizing v with
  | nil => cases v <;> rfl
  | cons x p ih =>
    cases v <;> cases x <;> simp [getPath]
    · split <;> simp [*]
    · split <;> simp [*]

theorem HasBytes.at {h : List Val} {v : Val} {b : List (BitVec 8)} (hb : HasBytes h v b) {i : Nat} (hi : i < b.length) (e : List (Name × Val)) :
    elemAt v (.int i) ⟨h, e⟩ = .ok (.u8 b[i]) ⟨h, e⟩ := by
  rcases hb.cases with rfl | ⟨rfl, rfl⟩ | ⟨a, p, off, cap, o, l, rfl, ho, hg, hl, he⟩
  · simp [go, hi]
  · simp at hi
  · have : l[off + i]? = some (.u8 b[i]) := by
      have := congrArg (·[i]?) he
      simpa [List.getElem?_take, hi, List.getElem?_drop] using this
    simp [go, hi, ho, getPath_append, hg, this]

/-- An index out of range. -/
theorem HasBytes.oob {h : List Val} {v : Val} {b : List (BitVec 8)} (hb : HasBytes h v b) {i : Nat} (hi : b.length ≤ i) (e : List (Name × Val)) :
    elemAt v (.int i) ⟨h, e⟩ = .panic h := by
  have : ¬ i < b.length := by omega
  rcases hb.cases with rfl | ⟨rfl, rfl⟩ | ⟨a, p, off, cap, o, l, rfl, ho, hg, hl, he⟩
  · simp [go, this]
  · have : ¬ (i : Int) < 0 := by omega
    simp [go, this]
  · simp [go, this]

/-- In memory `h`, the byte slice `v` holds these bytes, and its capacity is inside its array. -/
def IsBytes (h : List Val) (v : Val) (b : List (BitVec 8)) : Prop :=
  (v = .nil ∧ b = []) ∨ ∃ a p off cap o l, v = .slice a p off b.length cap ∧ h[a]? = some o ∧ getPath o p = some (.arr l) ∧
    off + cap ≤ l.length ∧ b.length ≤ cap ∧ (l.drop off).take b.length = b.map .u8

theorem valBytes_map (b : List (BitVec 8)) : valBytes (b.map .u8) = some b := by
  induction b with
  | nil => rfl
  | cons x b ih => simp [valBytes, ih]

theorem IsBytes.has {h : List Val} {v : Val} {b : List (BitVec 8)} (hb : IsBytes h v b) : HasBytes h v b := by
  unfold HasBytes
  rcases hb with ⟨rfl, rfl⟩ | ⟨a, p, off, cap, o, l, rfl, ho, hg, hc, hl, he⟩
  · rfl
  · have : off + b.length ≤ l.length := by omega
    simp [go, ho, hg, this, he, valBytes_map]

theorem hasBytes_str (h : List Val) (b : List (BitVec 8)) : HasBytes h (.str b) b := rfl

/-- The object that a slice refers to. -/
def base : Val → Option Nat
  | .slice a _ _ _ _ => some a
  | _ => none

theorem getPath_setPath {v w o : Val} {p : List Sel} (h : getPath v p = some o) :
    ∃ v', setPath v p w = some v' ∧ getPath v' p = some w := by
  induction p generalizing v with
  | nil => exact ⟨w, by cases v <;> rfl, by cases w <;> rfl⟩
  | cons x p ih =>
    cases v <;> cases x <;> simp only [getPath, reduceCtorEq] at h
    · rename_i l i
      split at h
      · rename_i u hu
        obtain ⟨v', h₁, h₂⟩ := ih h
        have hi : i < l.length := by
          rw [List.getElem?_eq_some_iff] at hu
          exact hu.1
        exact ⟨.arr (l.set i v'), by simp [setPath, hu, h₁], by simp [getPath, hi, h₂]⟩
      · simp at h
    · rename_i k t fs n
      split at h
      · rename_i u hu
        obtain ⟨v', h₁, h₂⟩ := ih h
        have key : ∃ fs', setField n v' fs = some fs' ∧ find n fs' = some v' := by
          clear h h₁ h₂ ih
          induction fs with
          | nil => simp [find] at hu
          | cons f fs ih =>
            obtain ⟨m, y⟩ := f
            by_cases hm : Nat.beq n m = true
            · exact ⟨(m, v') :: fs, by simp [setField, hm], by simp [find, hm]⟩
            · simp only [find, hm, if_false, Bool.false_eq_true] at hu
              obtain ⟨fs', h₁, h₂⟩ := ih hu
              simp only [Bool.not_eq_true] at hm
              exact ⟨(m, y) :: fs', by simp [setField, hm, h₁], by simp [find, hm, h₂]⟩
        obtain ⟨fs', h₃, h₄⟩ := key
        exact ⟨.struct k t fs', by simp [setPath, hu, h₁, h₃], by simp [getPath, h₄, h₂]⟩
      · simp at h

/-- What `append` does to bytes: the result holds the bytes of both, and no other object changes. -/
theorem appendTo_bytes (grow : Nat → Nat) {h : List Val} {v : Val} {b : List (BitVec 8)} (hb : IsBytes h v b) (w : List (BitVec 8)) :
    ∃ v' h', (∀ e, appendTo grow v (w.map .u8) ⟨h, e⟩ = .ok v' ⟨h', e⟩) ∧ IsBytes h' v' (b ++ w) ∧ Plain v' ∧
      (∀ i, i < h.length → some i ≠ base v → h'[i]? = h[i]?) := by
  rcases hb with ⟨rfl, rfl⟩ | ⟨a, p, off, cap, o, l, rfl, ho, hg, hc, hl, he⟩
  · cases w with
    | nil => exact ⟨.nil, h, fun e => rfl, .inl ⟨rfl, rfl⟩, trivial, fun i _ _ => rfl⟩
    | cons x w =>
      refine ⟨.slice h.length [] 0 (w.length + 1) (w.length + 1 + grow (w.length + 1)),
        h ++ [.arr (((x :: w).map .u8) ++ List.replicate (grow (w.length + 1)) (.u8 0))],
        fun e => ?_, .inr ⟨h.length, [], 0, _, _, _, rfl, List.getElem?_concat_length .., rfl, ?_, ?_, ?_⟩, trivial, fun i hi _ => ?_⟩
      · simp [go, zeroLike]
      · simp; omega
      · simp
      · simp
      · rw [List.getElem?_append_left hi]
  · by_cases hcap : b.length + w.length ≤ cap
    · obtain ⟨o', h₁, h₂⟩ := getPath_setPath (w := .arr (splice l (off + b.length) (w.map .u8))) hg
      have ha : a < h.length := by
        rw [List.getElem?_eq_some_iff] at ho
        exact ho.1
      refine ⟨.slice a p off (b.length + w.length) cap, h.set a o', fun e => ?_,
        .inr ⟨a, p, off, cap, o', splice l (off + b.length) (w.map .u8), by simp, by simp [ha], h₂, ?_, by simp; omega, ?_⟩, trivial,
        fun i _ hne => ?_⟩
      · have : off + b.length + w.length ≤ l.length := by omega
        simp [go, hcap, ho, hg, h₁, this]
      · simp [splice]; omega
      · simp only [splice]
        rw [List.drop_append_of_le_length (by simp; omega), List.drop_append_of_le_length (by simp; omega), List.drop_take]
        simp only [Nat.add_sub_cancel_left, List.length_append, List.map_append, List.length_map]
        rw [he, List.take_append_of_le_length (by simp), List.take_of_length_le (by simp)]
      · simp only [base, ne_eq, Option.some.injEq] at hne
        rw [List.getElem?_set_ne (by omega)]
    · have : off + b.length ≤ l.length := by omega
      refine ⟨.slice h.length [] 0 (b.length + w.length) (b.length + w.length + grow (b.length + w.length)),
        h ++ [.arr (b.map .u8 ++ w.map .u8 ++ List.replicate (grow (b.length + w.length)) (zeroLike (b.map .u8 ++ w.map .u8)))],
        fun e => ?_, .inr ⟨h.length, [], 0, b.length + w.length + grow (b.length + w.length), _, _, by simp, List.getElem?_concat_length ..,
        rfl, ?_, ?_, ?_⟩, trivial, fun i hi _ => ?_⟩
      · simp [go, hcap, ho, hg, this, he]
      · simp; omega
      · simp
      · rw [List.drop_zero, List.take_append_of_le_length (by simp), ← List.map_append, List.take_of_length_le (by simp)]
      · rw [List.getElem?_append_left hi]

theorem lt_of_get {α} {l : List α} {a : Nat} {x : α} (h : l[a]? = some x) : a < l.length :=
  (List.getElem?_eq_some_iff.mp h).1

attribute [go] List.set_set List.getElem?_set_self

/-- More objects change nothing. -/
theorem HasBytes.append {h : List Val} {v : Val} {b : List (BitVec 8)} (hb : HasBytes h v b) (t : List Val) : HasBytes (h ++ t) v b := by
  rcases hb.cases with rfl | ⟨rfl, rfl⟩ | ⟨a, p, off, cap, o, l, rfl, ho, hg, hl, he⟩
  · rfl
  · rfl
  · unfold HasBytes
    simp [go, List.getElem?_append_left (lt_of_get ho), ho, hg, hl, he, valBytes_map]

theorem IsBytes.append {h : List Val} {v : Val} {b : List (BitVec 8)} (hb : IsBytes h v b) (t : List Val) : IsBytes (h ++ t) v b := by
  rcases hb with hb | ⟨a, p, off, cap, o, l, rfl, ho, hr⟩
  · exact .inl hb
  · exact .inr ⟨a, p, off, cap, o, l, rfl, by rw [List.getElem?_append_left (lt_of_get ho), ho], hr⟩

/-- The object that was allocated last. -/
theorem get_last (h : List Val) (x : Val) : (h ++ [x])[h.length]? = some x := by simp

theorem set_last (h : List Val) (x y : Val) : (h ++ [x]).set h.length y = h ++ [y] := by simp

/-- A slice of all of an array of bytes. -/
theorem isBytes_all {h : List Val} {a : Nat} {l : List (BitVec 8)} (ha : h[a]? = some (.arr (l.map .u8))) :
    IsBytes h (.slice a [] 0 l.length l.length) l :=
  .inr ⟨a, [], 0, _, _, _, rfl, ha, rfl, by simp, Nat.le_refl _, by rw [List.drop_zero, ← List.map_take, List.take_length]⟩

theorem replicate_u8 (k : Nat) (x : BitVec 8) : List.replicate k (Val.u8 x) = (List.replicate k x).map .u8 := by simp

theorem get_map {l : List (BitVec 8)} {i : Nat} (hi : i < l.length) : (l.map Val.u8)[i]? = some (.u8 l[i]) := by simp [hi]

theorem get_map_none {l : List (BitVec 8)} {i : Nat} (hi : ¬ i < l.length) : (l.map Val.u8)[i]? = none := by simp; omega

theorem set_map (l : List (BitVec 8)) (i : Nat) (x : BitVec 8) : (l.map Val.u8).set i (.u8 x) = (l.set i x).map .u8 := by simp

/-- The last bit of an `int`. -/
theorem and_one {W n : Nat} (hW : 2 ≤ W) : (BitVec.ofInt W (n : Int) &&& BitVec.ofInt W 1).toInt = (n % 2 : Nat) := by
  have h1 : BitVec.ofInt W 1 = BitVec.ofNat W 1 := rfl
  have h2 : BitVec.ofInt W (n : Int) = BitVec.ofNat W n := BitVec.ofInt_natCast ..
  have hp : 2 < 2 ^ W ∨ 2 ^ W = 4 := by
    have := Nat.pow_le_pow_right (n := 2) (by decide) hW
    omega
  have h4 : 4 ≤ 2 ^ W := Nat.pow_le_pow_right (n := 2) (by decide) hW
  have : (BitVec.ofNat W n &&& BitVec.ofNat W 1).toNat = n % 2 := by
    rw [BitVec.toNat_and, BitVec.toNat_ofNat, BitVec.toNat_ofNat, Nat.mod_eq_of_lt (a := 1) (by omega), Nat.and_one_is_mod,
      Nat.mod_mod_of_dvd _ (by obtain ⟨w, rfl⟩ : ∃ w, W = w + 1 := ⟨W - 1, by omega⟩; exact ⟨2 ^ w, by rw [Nat.pow_succ, Nat.mul_comm]⟩)]
  rw [h1, h2, BitVec.toInt_eq_toNat_of_lt (by omega), this]

end GoLang
