import Mathlib.Logic.Equiv.List
import Verif.Lang.Claims
import Verif.Go.Mem

/-!
# Memory of programs as memory of bytes

For code that writes through byte slices that may overlap. A `Layout` gives every array of bytes in memory a range of addresses; a `View` of
the memory of a program is the memory of bytes (`Mem`) that it amounts to. Every memory has one (`exists_view`).
-/
namespace GoLang

/-! ## Paths -/

theorem samePath_iff {p q : List Sel} : samePath p q = true ↔ p = q := by
  induction p generalizing q with
  | nil => cases q <;> simp [samePath]
  | cons x p ih => cases q with
    | nil => cases x <;> simp [samePath]
    | cons y q => cases x <;> cases y <;> simp [samePath, ih, Nat.beq_eq]

/-- The paths part ways: neither leads through the other. -/
def Apart : List Sel → List Sel → Prop
  | x :: p, y :: q => x ≠ y ∨ Apart p q
  | _, _ => False

theorem find_setField {n m : Name} {v : Val} {fs fs' : List (Name × Val)} (h : setField n v fs = some fs') (hne : n ≠ m) :
    find m fs' = find m fs := by
  induction fs generalizing fs' with
  | nil => simp [setField] at h
  | cons f fs ih =>
    obtain ⟨k, y⟩ := f
    cases hb : Nat.beq n k with
    | true =>
      have : Nat.beq m k = false := by
        rw [Nat.eq_of_beq_eq_true hb] at hne
        cases hm : Nat.beq m k with
        | true => exact absurd (Nat.eq_of_beq_eq_true hm).symm hne
        | false => rfl
      simp only [setField, hb, cond_true, Option.some.injEq] at h
      subst h
      simp [find, this]
    | false =>
      simp only [setField, hb, cond_false, Option.map_eq_some_iff] at h
      obtain ⟨gs, hg, rfl⟩ := h
      simp [find, ih hg]

theorem find_setField_same {n : Name} {v : Val} {fs fs' : List (Name × Val)} (h : setField n v fs = some fs') : find n fs' = some v := by
  induction fs generalizing fs' with
  | nil => simp [setField] at h
  | cons f fs ih =>
    obtain ⟨k, y⟩ := f
    cases hb : Nat.beq n k with
    | true =>
      simp only [setField, hb, cond_true, Option.some.injEq] at h
      subst h
      simp [find, hb]
    | false =>
      simp only [setField, hb, cond_false, Option.map_eq_some_iff] at h
      obtain ⟨gs, hg, rfl⟩ := h
      simp [find, hb, ih hg]

/-- A write changes nothing elsewhere. -/
theorem getPath_apart {v w v' : Val} {p q : List Sel} (ha : Apart p q) (h : setPath v p w = some v') : getPath v' q = getPath v q := by
  induction p generalizing v v' q with
  | nil => simp [Apart] at ha
  | cons x p ih =>
    cases q with
    | nil => simp [Apart] at ha
    | cons y q =>
      simp only [Apart] at ha
      cases v <;> cases x <;> simp only [setPath, reduceCtorEq] at h
      · rename_i l i
        split at h
        · rename_i u hu
          split at h
          · rename_i u' hu'
            cases h
            cases y
            · rfl
            · rename_i j
              by_cases hij : i = j
              · subst hij
                have := lt_of_get hu
                simp only [getPath, List.getElem?_set_self this, hu]
                exact ih (ha.resolve_left (by simp)) hu'
              · simp only [getPath, List.getElem?_set_ne hij]
          · cases h
        · cases h
      · rename_i k t fs n
        split at h
        · rename_i u hu
          split at h
          · rename_i u' hu'
            rw [Option.map_eq_some_iff] at h
            obtain ⟨gs, hg, rfl⟩ := h
            cases y
            · rename_i m
              by_cases hnm : n = m
              · subst hnm
                simp only [getPath, find_setField_same hg, hu]
                exact ih (ha.resolve_left (by simp)) hu'
              · simp only [getPath, find_setField hg hnm]
            · rfl
          · cases h
        · cases h

/-- Two arrays of bytes in one object do not contain each other. -/
theorem apart_bytes {v : Val} {p q : List Sel} {l k : List (BitVec 8)} (h : getPath v p = some (.arr (l.map .u8)))
    (h' : getPath v q = some (.arr (k.map .u8))) (hne : p ≠ q) : Apart p q := by
  induction p generalizing v q with
  | nil =>
    cases q with
    | nil => exact absurd rfl hne
    | cons y q =>
      have : v = .arr (l.map .u8) := by cases v <;> simp_all [getPath]
      subst this
      cases y <;> simp only [getPath, reduceCtorEq] at h'
      split at h'
      · rename_i u hu
        rw [List.getElem?_map, Option.map_eq_some_iff] at hu
        obtain ⟨b, _, rfl⟩ := hu
        cases q <;> simp [getPath] at h'
      · cases h'
  | cons x p ih =>
    cases q with
    | nil =>
      have : v = .arr (k.map .u8) := by cases v <;> simp_all [getPath]
      subst this
      cases x <;> simp only [getPath, reduceCtorEq] at h
      split at h
      · rename_i u hu
        rw [List.getElem?_map, Option.map_eq_some_iff] at hu
        obtain ⟨b, _, rfl⟩ := hu
        cases p <;> simp [getPath] at h
      · cases h
    | cons y q =>
      by_cases hxy : x = y
      · subst hxy
        refine .inr ?_
        cases v <;> cases x <;> simp only [getPath, reduceCtorEq] at h h'
        · rename_i l i
          cases hu : l[i]? with
          | none => simp [hu] at h
          | some u =>
            simp only [hu] at h h'
            exact ih h h' (by simpa using hne)
        · rename_i k t fs n
          cases hu : find n fs with
          | none => simp [hu] at h
          | some u =>
            simp only [hu] at h h'
            exact ih h h' (by simpa using hne)
      · exact .inl hxy

theorem setPath_append (v w : Val) (p q : List Sel) :
    setPath v (p ++ q) w = (getPath v p).bind fun u => (setPath u q w).bind fun u' => setPath v p u' := by
  induction p generalizing v with
  | nil => cases v <;> simp [getPath, setPath]
  | cons x p ih =>
    cases v <;> cases x <;> simp only [List.cons_append, setPath, getPath, Option.bind_none]
    · rename_i l i
      cases hu : l[i]? with
      | none => rfl
      | some u =>
        simp only [ih]
        cases getPath u p with
        | none => rfl
        | some y =>
          simp only [Option.bind_some]
          cases setPath y q w with
          | none => rfl
          | some z => rfl
    · rename_i k t fs n
      cases hu : find n fs with
      | none => rfl
      | some u =>
        simp only [ih]
        cases getPath u p with
        | none => rfl
        | some y =>
          simp only [Option.bind_some]
          cases setPath y q w with
          | none => rfl
          | some z => rfl

/-! ## Layouts and views -/

/-- A part of memory. -/
def partAt (h : List Val) (a : Nat) (p : List Sel) : Option Val :=
  match h[a]? with
  | some v => getPath v p
  | none => none

/-- Addresses for arrays of bytes: array `p` of object `a`, if it is one of them, starts at `addr a p`; no two overlap. -/
structure Layout where
  key : Nat → List Sel → Prop
  addr : Nat → List Sel → Nat
  size : Nat → List Sel → Nat
  inj : ∀ {a p i b q j}, key a p → key b q → i < size a p → j < size b q → addr a p + i = addr b q + j → a = b ∧ p = q

/-- What is in array `p` of object `a`. -/
def Layout.bytes (L : Layout) (m : Mem) (a : Nat) (p : List Sel) : List (BitVec 8) := (List.range (L.size a p)).map fun i => m (L.addr a p + i)

/-- The arrays of the layout hold what the memory of bytes has at their addresses. -/
def View (L : Layout) (h : List Val) (m : Mem) : Prop := ∀ a p, L.key a p → partAt h a p = some (.arr ((L.bytes m a p).map .u8))

/-- Nothing but the arrays of the layout has changed. -/
def Frame (L : Layout) (h h' : List Val) : Prop :=
  h.length ≤ h'.length ∧ ∀ a p x, partAt h a p = some x → (∀ q, L.key a q → Apart q p) → partAt h' a p = some x

theorem Frame.refl (L : Layout) (h : List Val) : Frame L h h := ⟨Nat.le_refl _, fun _ _ _ hx _ => hx⟩

theorem Frame.trans {L : Layout} {h h' h'' : List Val} (x : Frame L h h') (y : Frame L h' h'') : Frame L h h'' :=
  ⟨Nat.le_trans x.1 y.1, fun a p z hz hq => y.2 a p z (x.2 a p z hz hq) hq⟩

/-- The byte slice `v` is the slice `s` of the memory of bytes. -/
def SliceAt (L : Layout) (v : Val) (s : Slice) : Prop :=
  (v = .nil ∧ s.len = 0) ∨
  ∃ a p off cap, v = .slice a p off s.len cap ∧ L.key a p ∧ s.base = L.addr a p + off ∧ s.len ≤ cap ∧ off + cap ≤ L.size a p

@[simp] theorem Layout.length_bytes (L : Layout) (m : Mem) (a : Nat) (p : List Sel) : (L.bytes m a p).length = L.size a p := by simp [Layout.bytes]

theorem Layout.get_bytes (L : Layout) (m : Mem) {a : Nat} {p : List Sel} {i : Nat} (hi : i < L.size a p) : (L.bytes m a p)[i]? = some (m (L.addr a p + i)) := by
  simp [Layout.bytes, hi]

theorem partAt_some {h : List Val} {a : Nat} {p : List Sel} {x : Val} (hp : partAt h a p = some x) : ∃ o, h[a]? = some o ∧ getPath o p = some x := by
  unfold partAt at hp
  split at hp
  · exact ⟨_, by assumption, hp⟩
  · cases hp

/-- The bytes of a slice. -/
theorem View.slice {L : Layout} {h : List Val} {m : Mem} (hV : View L h m) {a : Nat} {p : List Sel} {off len : Nat} (hk : L.key a p) (hs : off + len ≤ L.size a p) :
    ∃ o l, h[a]? = some o ∧ getPath o p = some (.arr l) ∧ l = (L.bytes m a p).map .u8 ∧ l.length = L.size a p ∧
      (l.drop off).take len = (Slice.content m ⟨L.addr a p + off, len⟩).map .u8 := by
  obtain ⟨o, ho, hg⟩ := partAt_some (hV a p hk)
  refine ⟨o, _, ho, hg, rfl, by simp, ?_⟩
  apply List.ext_getElem?
  intro i
  rw [List.getElem?_take, List.getElem?_drop, List.getElem?_map, List.getElem?_map]
  by_cases hi : i < len
  · rw [if_pos hi, L.get_bytes m (by omega)]
    simp [Slice.content, hi, Nat.add_assoc]
  · rw [if_neg hi]
    simp [Slice.content, hi]

theorem SliceAt.has {L : Layout} {h : List Val} {m : Mem} {v : Val} {s : Slice} (hs : SliceAt L v s) (hV : View L h m) : HasBytes h v (s.content m) := by
  rcases hs with ⟨rfl, h0⟩ | ⟨a, p, off, cap, rfl, hk, hb, hl, hc⟩
  · have : s.content m = [] := by simp [Slice.content, h0]
    rw [this]
    rfl
  · obtain ⟨o, l, ho, hg, -, hn, he⟩ := hV.slice (off := off) (len := s.len) hk (by omega)
    unfold HasBytes
    have e : (⟨L.addr a p + off, s.len⟩ : Slice) = s := by rw [← hb]
    rw [e] at he
    have : off + s.len ≤ l.length := by omega
    simp [go, ho, hg, this, he, valBytes_map]

theorem SliceAt.plain {L : Layout} {v : Val} {s : Slice} (hs : SliceAt L v s) : Plain v := by
  rcases hs with ⟨rfl, _⟩ | ⟨_, _, _, _, rfl, _⟩ <;> simp [Plain]

theorem SliceAt.able (hs : SliceAt L v s) (l : M Loc) : sliceable v l = pure v := by
  rcases hs with ⟨rfl, -⟩ | ⟨a, p, off, cap, rfl, -⟩ <;> rfl

theorem SliceAt.len {L : Layout} {v : Val} {s : Slice} (hs : SliceAt L v s) : lenOf v = pure (s.len : Int) := by
  rcases hs with ⟨rfl, h0⟩ | ⟨_, _, _, _, rfl, _⟩ <;> simp [lenOf, *]

@[simp] theorem _root_.Slice.length_content (m : Mem) (s : Slice) : (s.content m).length = s.len := by simp [Slice.content]

theorem SliceAt.at {L : Layout} {h : List Val} {m : Mem} {v : Val} {s : Slice} (hs : SliceAt L v s) (hV : View L h m) {i : Nat} (hi : i < s.len)
    (e : List (Name × Val)) : elemAt v (.int i) ⟨h, e⟩ = .ok (.u8 (m (s.base + i))) ⟨h, e⟩ := by
  rw [(hs.has hV).at (i := i) (by simpa using hi)]
  simp [Slice.content]

theorem SliceAt.oob {L : Layout} {h : List Val} {m : Mem} {v : Val} {s : Slice} (hs : SliceAt L v s) (hV : View L h m) {i : Nat} (hi : ¬ i < s.len)
    (e : List (Name × Val)) : elemAt v (.int i) ⟨h, e⟩ = .panic h :=
  (hs.has hV).oob (by simpa using hi) e

/-! ## Slicing -/

section
variable {L : Layout} {v : Val} {s : Slice}

/-- `s[lo:hi]` within the length. -/
theorem SliceAt.sub (hs : SliceAt L v s) {lo hi : Nat} (h1 : lo ≤ hi) (h2 : hi ≤ s.len) {x y : Val} (hx : exact x = some (lo : Int)) (hy : exact y = some (hi : Int)) :
    ∃ v', SliceAt L v' ⟨s.base + lo, hi - lo⟩ ∧ ∀ st, slicing v (some x) (some y) st = .ok v' st := by
  rcases hs with ⟨rfl, h0⟩ | ⟨a, p, off, cap, rfl, hk, hb, hl, hc⟩
  · obtain rfl : hi = 0 := by omega
    obtain rfl : lo = 0 := by omega
    exact ⟨.nil, .inl ⟨rfl, by simp⟩, fun st => by simp [go, hx, hy]⟩
  · refine ⟨.slice a p (off + lo) (hi - lo) (cap - lo), .inr ⟨a, p, off + lo, cap - lo, rfl, hk, by show s.base + lo = _; omega, by show hi - lo ≤ _; omega, by omega⟩, fun st => ?_⟩
    have e1 : (0 : Int) ≤ lo ∧ (lo : Int) < (cap : Int) + 1 := by omega
    have e2 : (0 : Int) ≤ hi ∧ (hi : Int) < (cap : Int) + 1 := by omega
    simp [go, e1, e2, h1, hx, hy]

/-- `s[lo:]`. -/
theorem SliceAt.from (hs : SliceAt L v s) {lo : Nat} (h1 : lo ≤ s.len) {x : Val} (hx : exact x = some (lo : Int)) :
    ∃ v', SliceAt L v' ⟨s.base + lo, s.len - lo⟩ ∧ ∀ st, slicing v (some x) none st = .ok v' st := by
  rcases hs with ⟨rfl, h0⟩ | ⟨a, p, off, cap, rfl, hk, hb, hl, hc⟩
  · obtain rfl : lo = 0 := by omega
    exact ⟨.nil, .inl ⟨rfl, by simp [h0]⟩, fun st => by simp [go, hx]⟩
  · refine ⟨.slice a p (off + lo) (s.len - lo) (cap - lo), .inr ⟨a, p, off + lo, cap - lo, rfl, hk, by show s.base + lo = _; omega, by show s.len - lo ≤ _; omega, by omega⟩, fun st => ?_⟩
    have e1 : (0 : Int) ≤ lo ∧ (lo : Int) < (cap : Int) + 1 := by omega
    simp [go, e1, h1, hx]

theorem SliceAt.from_panic (hs : SliceAt L v s) {lo : Nat} (h1 : ¬ lo ≤ s.len) {x : Val} (hx : exact x = some (lo : Int)) (st : St) :
    slicing v (some x) none st = .panic st.heap := by
  rcases hs with ⟨rfl, h0⟩ | ⟨a, p, off, cap, rfl, hk, hb, hl, hc⟩
  · have e1 : ¬ (lo : Int) < 1 := by omega
    simp [go, e1, hx]
  · by_cases e1 : (lo : Int) < (cap : Int) + 1
    · simp [go, e1, h1, hx]
    · simp [go, e1, hx]

/-- `s[:hi]` within the length. -/
theorem SliceAt.upto (hs : SliceAt L v s) {hi : Nat} (h2 : hi ≤ s.len) {y : Val} (hy : exact y = some (hi : Int)) :
    ∃ v', SliceAt L v' ⟨s.base, hi⟩ ∧ ∀ st, slicing v none (some y) st = .ok v' st := by
  rcases hs with ⟨rfl, h0⟩ | ⟨a, p, off, cap, rfl, hk, hb, hl, hc⟩
  · obtain rfl : hi = 0 := by omega
    exact ⟨.nil, .inl ⟨rfl, by simp⟩, fun st => by simp [go, hy]⟩
  · refine ⟨.slice a p off hi cap, .inr ⟨a, p, off, cap, rfl, hk, hb, by show hi ≤ _; omega, by omega⟩, fun st => ?_⟩
    have e2 : (0 : Int) ≤ hi ∧ (hi : Int) < (cap : Int) + 1 := by omega
    simp [go, e2, hy]

end

/-! ## Writing -/

/-- Memory of bytes after writing bytes from an address on. -/
def putBytes (m : Mem) (x : Nat) (w : List (BitVec 8)) : Mem := fun y => if x ≤ y ∧ y < x + w.length then w.getD (y - x) 0#8 else m y

theorem putBytes_one (m : Mem) (x : Nat) (b : BitVec 8) : putBytes m x [b] = fun y => if y = x then b else m y := by
  funext y
  simp only [putBytes, List.length_singleton]
  by_cases e : y = x
  · subst e; simp
  · rw [if_neg (by omega), if_neg e]

theorem splice_bytes (L : Layout) (m : Mem) {a : Nat} {p : List Sel} {off : Nat} {w : List (BitVec 8)} (h : off + w.length ≤ L.size a p) :
    splice ((L.bytes m a p).map .u8) off (w.map .u8) = (L.bytes (putBytes m (L.addr a p + off) w) a p).map .u8 := by
  apply List.ext_getElem?
  intro i
  rw [List.getElem?_map]
  simp only [splice, List.length_map]
  by_cases h1 : i < off
  · rw [List.append_assoc, List.getElem?_append_left (by simp; omega), List.getElem?_take, if_pos h1, List.getElem?_map, L.get_bytes m (by omega),
      L.get_bytes _ (by omega)]
    simp only [putBytes, Option.map_some]
    rw [if_neg (by omega)]
  · by_cases h2 : i < off + w.length
    · rw [List.append_assoc, List.getElem?_append_right (by simp; omega), List.getElem?_append_left (by simp; omega), List.getElem?_map, L.get_bytes _ (by omega)]
      simp only [putBytes, Option.map_some, List.length_take, List.length_map, Layout.length_bytes]
      rw [if_pos (by omega), Nat.min_eq_left (by omega), show L.addr a p + i - (L.addr a p + off) = i - off by omega]
      rw [List.getD_eq_getElem?_getD, List.getElem?_eq_getElem (by omega)]
      rfl
    · rw [List.getElem?_append_right (by simp; omega), List.getElem?_drop, List.getElem?_map]
      simp only [List.length_append, List.length_take, List.length_map, Layout.length_bytes]
      rw [Nat.min_eq_left (by omega), show off + w.length + (i - (off + w.length)) = i by omega]
      by_cases h3 : i < L.size a p
      · rw [L.get_bytes m h3, L.get_bytes _ h3]
        simp only [putBytes, Option.map_some]
        rw [if_neg (by omega)]
      · rw [List.getElem?_eq_none (by simp; omega), List.getElem?_eq_none (by simp; omega)]

/-- Storing bytes in an array of the layout. -/
theorem View.store {L : Layout} {h : List Val} {m : Mem} (hV : View L h m) {a : Nat} {p : List Sel} (hk : L.key a p) {off : Nat} {w : List (BitVec 8)}
    (hw : off + w.length ≤ L.size a p) {o : Val} (ho : h[a]? = some o) :
    ∃ o', setPath o p (.arr (splice ((L.bytes m a p).map .u8) off (w.map .u8))) = some o' ∧
      View L (h.set a o') (putBytes m (L.addr a p + off) w) ∧ Frame L h (h.set a o') := by
  have hg := hV a p hk
  simp only [partAt, ho] at hg
  rw [splice_bytes L m hw]
  obtain ⟨o', h1, h2⟩ := getPath_setPath (w := .arr ((L.bytes (putBytes m (L.addr a p + off) w) a p).map .u8)) hg
  have ha := lt_of_get ho
  refine ⟨o', h1, fun b q hq => ?_, ?_, fun b q x hx hap => ?_⟩
  · by_cases hab : a = b
    · subst hab
      by_cases hpq : p = q
      · subst hpq
        simp only [partAt, List.getElem?_set_self ha, h2]
      · have hg' := hV a q hq
        simp only [partAt, ho] at hg'
        simp only [partAt, List.getElem?_set_self ha]
        rw [getPath_apart (apart_bytes hg hg' hpq) h1, hg']
        congr 3
        simp only [Layout.bytes, List.map_inj_left, List.mem_range]
        intro i hi
        simp only [putBytes]
        rw [if_neg]
        intro hc
        exact hpq (L.inj hk hq (i := L.addr a q + i - L.addr a p) (by omega) hi (by omega)).2
    · have hg' := hV b q hq
      simp only [partAt, List.getElem?_set_ne hab] at hg' ⊢
      rw [hg']
      congr 3
      simp only [Layout.bytes, List.map_inj_left, List.mem_range]
      intro i hi
      simp only [putBytes]
      rw [if_neg]
      intro hc
      exact hab (L.inj hk hq (i := L.addr b q + i - L.addr a p) (by omega) hi (by omega)).1
  · simp
  · by_cases hab : a = b
    · subst hab
      simp only [partAt, ho] at hx
      simp only [partAt, List.getElem?_set_self ha]
      rw [getPath_apart (hap p hk) h1, hx]
    · simp only [partAt, List.getElem?_set_ne hab] at hx ⊢
      exact hx

/-- `storeElems` into a slice. -/
theorem SliceAt.write {L : Layout} {h : List Val} {m : Mem} {a : Nat} {p : List Sel} {off : Nat} (hV : View L h m) (hk : L.key a p) (w : List (BitVec 8))
    (hw : off + w.length ≤ L.size a p) :
    ∃ h', View L h' (putBytes m (L.addr a p + off) w) ∧ Frame L h h' ∧ ∀ e, storeElems a p off (w.map .u8) ⟨h, e⟩ = .ok () ⟨h', e⟩ := by
  obtain ⟨o, ho, hg⟩ := partAt_some (hV a p hk)
  obtain ⟨o', h1, h2, h3⟩ := hV.store hk hw ho
  refine ⟨_, h2, h3, fun e => ?_⟩
  have : off + w.length ≤ L.size a p := hw
  simp [go, ho, hg, h1, this]

theorem putBytes_copyStr (m : Mem) (s : Slice) (w : List (BitVec 8)) : putBytes m s.base (w.take s.len) = Slice.copyStr m s w := by
  funext y
  simp only [putBytes, Slice.copyStr, List.length_take]
  by_cases hy : s.base ≤ y ∧ y < s.base + min s.len w.length
  · rw [if_pos hy, if_pos hy, List.getD_eq_getElem?_getD, List.getElem?_take, if_pos (by omega), List.getD_eq_getElem?_getD]
  · rw [if_neg hy, if_neg hy]

theorem copyStr_content (m : Mem) (d s : Slice) : Slice.copyStr m d (s.content m) = Slice.copy m d s := by
  funext y
  simp only [Slice.copyStr, Slice.copy, Slice.length_content]
  by_cases hy : d.base ≤ y ∧ y < d.base + min d.len s.len
  · rw [if_pos hy, if_pos hy, List.getD_eq_getElem?_getD, Slice.content, List.getElem?_map, List.getElem?_range (by omega)]
    rfl
  · rw [if_neg hy, if_neg hy]

/-- `copy(v, w)`. -/
theorem SliceAt.copyTo {L : Layout} {h : List Val} {m : Mem} {v : Val} {s : Slice} (hs : SliceAt L v s) (hV : View L h m) (w : List (BitVec 8)) :
    ∃ h', View L h' (Slice.copyStr m s w) ∧ Frame L h h' ∧ ∀ e, GoLang.copyTo v (w.map .u8) ⟨h, e⟩ = .ok (.int (min s.len w.length : Nat)) ⟨h', e⟩ := by
  rcases hs with ⟨rfl, h0⟩ | ⟨a, p, off, cap, rfl, hk, hb, hl, hc⟩
  · refine ⟨h, ?_, Frame.refl L h, fun e => by simp [go, h0]⟩
    rwa [← putBytes_copyStr, h0, List.take_zero, show putBytes m s.base [] = m by funext y; simp only [putBytes, List.length_nil]; rw [if_neg (by omega)]]
  · obtain ⟨h', h1, h2, h3⟩ := SliceAt.write hV hk (off := off) (w.take s.len) (by simp; omega)
    rw [← hb, putBytes_copyStr] at h1
    refine ⟨h', h1, h2, fun e => ?_⟩
    have := h3 e
    rw [List.map_take] at this
    rw [GoLang.copyTo]
    simp only [bind_apply, this, bind_ok, pure_apply, List.length_map]

theorem SliceAt.elemsIn {L : Layout} {h : List Val} {m : Mem} {v : Val} {s : Slice} (hs : SliceAt L v s) (hV : View L h m) (e : List (Name × Val)) :
    GoLang.elemsIn v ⟨h, e⟩ = .ok ((s.content m).map .u8) ⟨h, e⟩ := by
  rcases hs with ⟨rfl, h0⟩ | ⟨a, p, off, cap, rfl, hk, hb, hl, hc⟩
  · simp [go, Slice.content, h0]
  · obtain ⟨o, l, ho, hg, -, hn, he⟩ := hV.slice (off := off) (len := s.len) hk (by omega)
    have e' : (⟨L.addr a p + off, s.len⟩ : Slice) = s := by rw [← hb]
    rw [e'] at he
    have : off + s.len ≤ l.length := by omega
    simp [go, ho, hg, this, he]

/-- The place of an element, and what it holds. -/
theorem SliceAt.loc {L : Layout} {v : Val} {s : Slice} (hs : SliceAt L v s) {i : Nat} (hi : i < s.len) {j : Val} (hj : exact j = some (i : Int)) :
    ∃ l : Loc, (∀ pl x st, x st = .ok j st → elemLoc v pl x st = .ok l st) ∧ ∀ h m, View L h m →
      (∀ e, loadLoc l ⟨h, e⟩ = .ok (.u8 (m (s.base + i))) ⟨h, e⟩) ∧ ∀ b : BitVec 8, ∃ h' m', Slice.set m s i b = .ok m' ∧ View L h' m' ∧ Frame L h h' ∧
        ∀ e, storeLoc l (.u8 b) ⟨h, e⟩ = .ok () ⟨h', e⟩ := by
  rcases hs with ⟨rfl, h0⟩ | ⟨a, p, off, cap, rfl, hk, hb, hl, hc⟩
  · omega
  · refine ⟨.heap a (p ++ [.idx (off + i)]), fun pl x st hx => ?_, fun h m hV => ⟨fun e => ?_, fun b => ?_⟩⟩
    · simp [go, hx, hi, hj]
    · obtain ⟨o, ho, hg⟩ := partAt_some (hV a p hk)
      have := L.get_bytes m (a := a) (p := p) (i := off + i) (by omega)
      simp [go, ho, getPath_append, hg, this, hb, Nat.add_assoc]
    · obtain ⟨o, ho, hg⟩ := partAt_some (hV a p hk)
      obtain ⟨o', h1, h2, h3⟩ := hV.store hk (off := off + i) (w := [b]) (by simp; omega) ho
      rw [show L.addr a p + (off + i) = s.base + i by omega] at h2
      refine ⟨_, _, by rw [Slice.set, if_pos hi, putBytes_one], h2, h3, fun e => ?_⟩
      have : (splice ((L.bytes m a p).map .u8) (off + i) ([b].map .u8)) = ((L.bytes m a p).map .u8).set (off + i) (.u8 b) := by
        rw [List.set_eq_take_append_cons_drop, if_pos (by simp; omega)]
        simp [splice]
      rw [this] at h1
      have hx := L.get_bytes m (a := a) (p := p) (i := off + i) (by omega)
      simp [go, ho, getPath_append, setPath_append, hg, hx, h1]

/-- A place out of range. -/
theorem SliceAt.loc_panic {L : Layout} {v : Val} {s : Slice} (hs : SliceAt L v s) {i : Nat} (hi : ¬ i < s.len) {j : Val} (hj : exact j = some (i : Int))
    (pl : M Loc) (x : M Val) (st : St) (hx : x st = .ok j st) : elemLoc v pl x st = .panic st.heap := by
  rcases hs with ⟨rfl, h0⟩ | ⟨a, p, off, cap, rfl, hk, hb, hl, hc⟩
  · have : ¬ (i : Int) < 0 := by omega
    simp [go, hx, this, hj]
  · simp [go, hx, hi, hj]

/-- `&v[0] == &w[0]` tells whether the slices begin at the same address. -/
theorem SliceAt.same {L : Layout} {v w : Val} {s t : Slice} (hv : SliceAt L v s) (hw : SliceAt L w t) (h1 : 0 < s.len) (h2 : 0 < t.len) {j : Val}
    (hj : exact j = some (0 : Int)) :
    ∃ l k : Loc, ∃ a p b q, (∀ pl x st, x st = .ok j st → elemLoc v pl x st = .ok l st) ∧ (∀ pl x st, x st = .ok j st → elemLoc w pl x st = .ok k st) ∧
      (∀ h m, View L h m → ∀ e, addrOf l ⟨h, e⟩ = .ok (.ptr 0 0 a p) ⟨h, e⟩) ∧ (∀ h m, View L h m → ∀ e, addrOf k ⟨h, e⟩ = .ok (.ptr 0 0 b q) ⟨h, e⟩) ∧
      (Nat.beq a b && samePath p q) = decide (s.base = t.base) := by
  rcases hv with ⟨rfl, h0⟩ | ⟨a, p, off, cap, rfl, hk, hb, hl, hc⟩
  · omega
  rcases hw with ⟨rfl, h0⟩ | ⟨a', p', off', cap', rfl, hk', hb', hl', hc'⟩
  · omega
  refine ⟨.heap a (p ++ [.idx off]), .heap a' (p' ++ [.idx off']), a, p ++ [.idx off], a', p' ++ [.idx off'], fun pl x st hx => ?_, fun pl x st hx => ?_,
    fun h m hV e => ?_, fun h m hV e => ?_, ?_⟩
  · simp [go, hx, h1, hj]
  · simp [go, hx, h2, hj]
  · obtain ⟨o, ho, hg⟩ := partAt_some (hV a p hk)
    have := L.get_bytes m (a := a) (p := p) (i := off) (by omega)
    simp [go, ho, getPath_append, hg, this]
  · obtain ⟨o, ho, hg⟩ := partAt_some (hV a' p' hk')
    have := L.get_bytes m (a := a') (p := p') (i := off') (by omega)
    simp [go, ho, getPath_append, hg, this]
  · by_cases e : s.base = t.base
    · obtain ⟨rfl, rfl⟩ := L.inj hk hk' (i := off) (j := off') (by omega) (by omega) (by omega)
      obtain rfl : off = off' := by omega
      simp [samePath_iff.mpr rfl, e]
    · simp only [e, decide_false, Bool.and_eq_false_iff]
      by_cases ha : a = a'
      · refine .inr (Bool.eq_false_iff.mpr fun c => e ?_)
        have := samePath_iff.mp c
        obtain ⟨rfl, h3⟩ := List.append_inj' this rfl
        simp only [List.cons.injEq, Sel.idx.injEq, and_true] at h3
        subst ha
        omega
      · exact .inl (Bool.eq_false_iff.mpr fun c => ha (Nat.eq_of_beq_eq_true c))

/-- The memory a stretch of stores leaves. -/
theorem putBytes_cons (m : Mem) (x : Nat) (b : BitVec 8) (w : List (BitVec 8)) : putBytes m x (b :: w) = putBytes (putBytes m x [b]) (x + 1) w := by
  funext y
  simp only [putBytes, List.length_cons, List.length_nil]
  by_cases e : y = x
  · subst e; simp
  · by_cases c : x + 1 ≤ y ∧ y < x + 1 + w.length
    · rw [if_pos (by omega), if_pos c, show y - x = (y - (x + 1)) + 1 by omega, List.getD_cons_succ]
    · rw [if_neg (by omega), if_neg c, if_neg (by omega)]

/-! ## Numbers in memory -/

theorem SliceAt.read {L : Layout} {h : List Val} {m : Mem} {v : Val} {s : Slice} (hs : SliceAt L v s) (hV : View L h m) (big : Bool) {k : Nat} (hk : k ≤ s.len)
    (h0 : 0 < k) (e : List (Name × Val)) :
    readUint big k v ⟨h, e⟩ = .ok (leNat (bif big then (Slice.content m ⟨s.base, k⟩).reverse else Slice.content m ⟨s.base, k⟩)) ⟨h, e⟩ := by
  rcases hs with ⟨rfl, h0⟩ | ⟨a, p, off, cap, rfl, hk', hb, hl, hc⟩
  · omega
  · obtain ⟨o, l, ho, hg, -, hn, he⟩ := hV.slice (off := off) (len := k) hk' (by omega)
    rw [← hb] at he
    have : off + k ≤ l.length := by omega
    simp [readUint, firstElems, go, ho, hg, this, he, hk, valBytes_map]

theorem SliceAt.read_panic {L : Layout} {v : Val} {s : Slice} (hs : SliceAt L v s) (big : Bool) {k : Nat} (hk : ¬ k ≤ s.len) (st : St) :
    readUint big k v st = .panic st.heap := by
  rcases hs with ⟨rfl, h0⟩ | ⟨a, p, off, cap, rfl, hk', hb, hl, hc⟩
  · simp [readUint, firstElems, go]
  · simp [readUint, firstElems, go, hk]

theorem leBytes_map (k x : Nat) : ∃ w : List (BitVec 8), leBytes k x = w.map .u8 ∧ w.length = k ∧ ∀ i, i < k → w[i]? = some (BitVec.ofNat 8 (x / 256 ^ i)) := by
  induction k generalizing x with
  | zero => exact ⟨[], rfl, rfl, by simp⟩
  | succ k ih =>
    obtain ⟨w, h1, h2, h3⟩ := ih (x / 256)
    refine ⟨BitVec.ofNat 8 x :: w, by simp [leBytes, h1], by simp [h2], fun i hi => ?_⟩
    cases i with
    | zero => simp
    | succ i =>
      rw [List.getElem?_cons_succ, h3 i (by omega), Nat.div_div_eq_div_mul, Nat.pow_succ, Nat.mul_comm]

theorem SliceAt.put {L : Layout} {h : List Val} {m : Mem} {v : Val} {s : Slice} (hs : SliceAt L v s) (hV : View L h m) (big : Bool) {k : Nat} (hk : k ≤ s.len)
    (h0 : 0 < k) (x : Nat) {w : List (BitVec 8)} (hw : leBytes k x = w.map .u8) (hl : w.length = k) :
    ∃ h', View L h' (putBytes m s.base (bif big then w.reverse else w)) ∧ Frame L h h' ∧ ∀ e, putUint big k v x ⟨h, e⟩ = .ok (.tuple []) ⟨h', e⟩ := by
  rcases hs with ⟨rfl, h0⟩ | ⟨a, p, off, cap, rfl, hk', hb, hl', hc⟩
  · omega
  · obtain ⟨h', h1, h2, h3⟩ := SliceAt.write hV hk' (off := off) (bif big then w.reverse else w) (by cases big <;> simp <;> omega)
    rw [← hb] at h1
    refine ⟨h', h1, h2, fun e => ?_⟩
    have h3 := h3 e
    cases big <;> simp only [cond_true, cond_false] at h3 <;> simp only [putUint, hk, if_true, hw, cond_true, cond_false, bind_apply, List.map_reverse] at h3 ⊢ <;>
      rw [h3] <;> rfl

theorem SliceAt.put_panic {L : Layout} {v : Val} {s : Slice} (hs : SliceAt L v s) (big : Bool) {k : Nat} (hk : ¬ k ≤ s.len) (x : Nat) (st : St) :
    putUint big k v x st = .panic st.heap := by
  rcases hs with ⟨rfl, h0⟩ | ⟨a, p, off, cap, rfl, hk', hb, hl, hc⟩
  · simp [putUint, go]
  · simp [putUint, go, hk]

/-! ## Every memory has a view -/

theorem find_size {n : Name} {fs : List (Name × Val)} {v : Val} (h : find n fs = some v) : sizeOf v < sizeOf fs := by
  induction fs with
  | nil => simp [find] at h
  | cons f fs ih =>
    obtain ⟨m, y⟩ := f
    cases hb : Nat.beq n m with
    | true =>
      simp only [find, hb, if_true, Option.some.injEq] at h
      subst h
      simp
      omega
    | false =>
      simp only [find, hb, if_false, Bool.false_eq_true] at h
      have := ih h
      simp
      omega

theorem getPath_size {v w : Val} {p : List Sel} (h : getPath v p = some w) : sizeOf w ≤ sizeOf v := by
  induction p generalizing v with
  | nil =>
    have : v = w := by cases v <;> simpa [getPath] using h
    rw [this]
  | cons x p ih =>
    cases v <;> cases x <;> simp only [getPath, reduceCtorEq] at h
    · rename_i l i
      cases hu : l[i]? with
      | none => simp [hu] at h
      | some u =>
        simp only [hu] at h
        have h1 := ih h
        have h2 := List.sizeOf_lt_of_mem (List.mem_of_getElem? hu)
        simp
        omega
    · rename_i k t fs n
      cases hu : find n fs with
      | none => simp [hu] at h
      | some u =>
        simp only [hu] at h
        have h1 := ih h
        have h2 := find_size hu
        simp
        omega

theorem length_size (l : List Val) : l.length < sizeOf l := by
  induction l with
  | nil => simp
  | cons x l ih => simp; omega

theorem partAt_size {h : List Val} {a : Nat} {p : List Sel} {l : List Val} (hp : partAt h a p = some (.arr l)) : l.length < sizeOf h := by
  obtain ⟨o, ho, hg⟩ := partAt_some hp
  have h1 := getPath_size hg
  have h2 := List.sizeOf_lt_of_mem (List.mem_of_getElem? ho)
  have h3 := length_size l
  simp at h1
  omega

/-- A number for a step. -/
def Sel.toSum : Sel → Nat ⊕ Nat
  | .fld n => .inl n
  | .idx i => .inr i

theorem Sel.toSum_inj : Function.Injective Sel.toSum := by
  intro x y h
  cases x <;> cases y <;> simp_all [Sel.toSum]

/-- A number for a path in an object. -/
noncomputable def placeCode (a : Nat) (p : List Sel) : Nat := Encodable.encode (a, p.map Sel.toSum)

theorem placeCode_inj {a b : Nat} {p q : List Sel} (h : placeCode a p = placeCode b q) : a = b ∧ p = q := by
  have := Encodable.encode_injective h
  simp only [Prod.mk.injEq] at this
  exact ⟨this.1, List.map_injective_iff.mpr Sel.toSum_inj this.2⟩

/-- The length of an array. -/
def arrayLen : Option Val → Nat
  | some (.arr l) => l.length
  | _ => 0

/-- The layout of all arrays of bytes of a memory. -/
noncomputable def layoutOf (h : List Val) : Layout where
  key a p := ∃ l : List (BitVec 8), partAt h a p = some (.arr (l.map .u8))
  addr a p := placeCode a p * sizeOf h
  size a p := arrayLen (partAt h a p)
  inj := by
    intro a p i b q j ⟨l, hl⟩ ⟨k, hk⟩ hi hj he
    rw [hl] at hi
    rw [hk] at hj
    have h1 := partAt_size hl
    have h2 := partAt_size hk
    simp only [arrayLen] at hi hj
    apply placeCode_inj
    have e1 : (placeCode a p * sizeOf h + i) / sizeOf h = placeCode a p := by
      rw [Nat.mul_comm, Nat.mul_add_div (by omega), Nat.div_eq_of_lt (by omega), Nat.add_zero]
    have e2 : (placeCode b q * sizeOf h + j) / sizeOf h = placeCode b q := by
      rw [Nat.mul_comm, Nat.mul_add_div (by omega), Nat.div_eq_of_lt (by omega), Nat.add_zero]
    rw [← e1, ← e2, he]

/-- The byte that a value is. -/
def byteOf : Option Val → BitVec 8
  | some (.u8 x) => x
  | _ => 0

/-- The elements of an array. -/
def arrayElems : Option Val → List Val
  | some (.arr l) => l
  | _ => []

open Classical in
/-- What is at these addresses. -/
noncomputable def memOf (h : List Val) : Mem := fun x =>
  if c : ∃ a p, placeCode a p = x / sizeOf h then byteOf (arrayElems (partAt h c.choose c.choose_spec.choose))[x % sizeOf h]? else 0

theorem view_of (h : List Val) : View (layoutOf h) h (memOf h) := by
  rintro a p ⟨l, hl⟩
  rw [hl]
  congr 3
  have hs := partAt_size hl
  have hsz : (layoutOf h).size a p = l.length := by
    show arrayLen (partAt h a p) = _
    rw [hl]
    simp [arrayLen]
  apply List.ext_getElem?
  intro i
  by_cases hi : i < l.length
  · rw [(layoutOf h).get_bytes _ (by omega), List.getElem?_eq_getElem hi]
    congr 1
    have e1 : (placeCode a p * sizeOf h + i) / sizeOf h = placeCode a p := by
      rw [Nat.mul_comm, Nat.mul_add_div (by simp at hs; omega), Nat.div_eq_of_lt (by simp at hs; omega), Nat.add_zero]
    have e2 : (placeCode a p * sizeOf h + i) % sizeOf h = i := by
      rw [Nat.mul_comm, Nat.mul_add_mod, Nat.mod_eq_of_lt (by simp at hs; omega)]
    show _ = memOf h (placeCode a p * sizeOf h + i)
    unfold memOf
    have c : ∃ b q, placeCode b q = (placeCode a p * sizeOf h + i) / sizeOf h := ⟨a, p, e1.symm⟩
    rw [dif_pos c, e2]
    obtain ⟨x, y⟩ := placeCode_inj (c.choose_spec.choose_spec.trans e1)
    rw [y, x, hl]
    simp [arrayElems, byteOf, hi]
  · rw [List.getElem?_eq_none (Nat.not_lt.mp hi), List.getElem?_eq_none (by rw [Layout.length_bytes]; omega)]

/-- A byte slice: nil, or part of an array of bytes. -/
def ByteSlice (h : List Val) (v : Val) : Prop :=
  v = .nil ∨ ∃ a p off len cap, ∃ l : List (BitVec 8), v = .slice a p off len cap ∧ partAt h a p = some (.arr (l.map .u8)) ∧ len ≤ cap ∧ off + cap ≤ l.length

/-- Its place in the view. -/
noncomputable def sliceOf (h : List Val) : Val → Slice
  | .slice a p off len _ => ⟨(layoutOf h).addr a p + off, len⟩
  | _ => ⟨0, 0⟩

theorem ByteSlice.at {h : List Val} {v : Val} (hv : ByteSlice h v) : SliceAt (layoutOf h) v (sliceOf h v) := by
  rcases hv with rfl | ⟨a, p, off, len, cap, l, rfl, hp, h1, h2⟩
  · exact .inl ⟨rfl, rfl⟩
  · refine .inr ⟨a, p, off, cap, rfl, ⟨l, hp⟩, rfl, h1, ?_⟩
    show _ ≤ arrayLen (partAt h a p)
    rw [hp]
    simpa [arrayLen] using h2

/-! ## Memory before and after, without layouts -/

/-- The length of a byte slice. -/
def sliceLen : Val → Nat
  | .slice _ _ _ len _ => len
  | _ => 0

/-- Element `i` of array `p` of object `a` is one of the first `k` elements of the slice. -/
def Covers (v : Val) (k a : Nat) (p : List Sel) (i : Nat) : Prop := ∃ off len cap, v = .slice a p off len cap ∧ off ≤ i ∧ i < off + min k len

/-- The first `k` elements of the one and the first `j` of the other are different variables. -/
def NoOverlap (v : Val) (k : Nat) (w : Val) (j : Nat) : Prop := ∀ a p i, ¬ (Covers v k a p i ∧ Covers w j a p i)

/-- The slices start with the same element. -/
def SameStart (v w : Val) : Prop := ∃ a p off len cap len' cap', v = .slice a p off len cap ∧ w = .slice a p off len' cap'

/-- Every array of bytes keeps its length and those of its bytes that are not in `T`; everything that neither contains nor lies in
an array of bytes stays. Objects may be added. -/
structure Keeps (T : Nat → List Sel → Nat → Prop) (h h' : List Val) : Prop where
  length : h.length ≤ h'.length
  bytes : ∀ a p (l : List (BitVec 8)), partAt h a p = some (.arr (l.map .u8)) →
    ∃ l' : List (BitVec 8), partAt h' a p = some (.arr (l'.map .u8)) ∧ l'.length = l.length ∧ ∀ i, ¬ T a p i → l'[i]? = l[i]?
  others : ∀ a p x, partAt h a p = some x → (∀ q (l : List (BitVec 8)), partAt h a q = some (.arr (l.map .u8)) → Apart q p) → partAt h' a p = some x

theorem u8_inj {l k : List (BitVec 8)} (h : l.map Val.u8 = k.map Val.u8) : l = k := by
  refine List.map_injective_iff.mpr ?_ h
  intro x y e
  cases e
  rfl

theorem sliceLen_eq (h : List Val) (v : Val) : (sliceOf h v).len = sliceLen v := by cases v <;> rfl

theorem ByteSlice.content {h : List Val} {v : Val} (hv : ByteSlice h v) {b : List (BitVec 8)} (hb : HasBytes h v b) : (sliceOf h v).content (memOf h) = b :=
  HasBytes.unique (hv.at.has (view_of h)) hb

theorem ByteSlice.length {h : List Val} {v : Val} (hv : ByteSlice h v) {b : List (BitVec 8)} (hb : HasBytes h v b) : (sliceOf h v).len = b.length := by
  rw [← hv.content hb, Slice.length_content]

/-- The elements of a slice by their addresses. -/
theorem covers_of {h : List Val} {v : Val} (hv : ByteSlice h v) {k a i : Nat} {p : List Sel} (hk : (layoutOf h).key a p) (hi : i < (layoutOf h).size a p)
    (hh : (⟨(sliceOf h v).base, min k (sliceOf h v).len⟩ : Slice).Has ((layoutOf h).addr a p + i)) : Covers v k a p i := by
  rcases hv.at with ⟨rfl, h0⟩ | ⟨b, q, off, cap, ev, hk', hb, hl, hc⟩
  · simp only [Slice.Has, h0] at hh
    omega
  · simp only [Slice.Has, hb] at hh
    have hx := (layoutOf h).inj hk hk' hi (j := (layoutOf h).addr a p + i - (layoutOf h).addr b q) (by omega) (by omega)
    obtain ⟨rfl, rfl⟩ := hx
    exact ⟨off, _, cap, ev, by omega, by omega⟩

theorem Keeps.of {h h' : List Val} {v : Val} (hv : ByteSlice h v) {k : Nat} {m' : Mem} (hV : View (layoutOf h) h' m') (hF : Frame (layoutOf h) h h')
    (ho : ∀ x, ¬ (⟨(sliceOf h v).base, min k (sliceOf h v).len⟩ : Slice).Has x → m' x = memOf h x) : Keeps (Covers v k) h h' := by
  refine ⟨hF.1, fun a p l hl => ?_, fun a p x hx hq => hF.2 a p x hx fun q ⟨l, hl⟩ => hq q l hl⟩
  have hk : (layoutOf h).key a p := ⟨l, hl⟩
  have e : l = (layoutOf h).bytes (memOf h) a p := by
    have := view_of h a p hk
    rw [hl] at this
    simp only [Option.some.injEq, Val.arr.injEq] at this
    exact u8_inj this
  refine ⟨_, hV a p hk, by rw [e, Layout.length_bytes, Layout.length_bytes], fun i hi => ?_⟩
  rw [e]
  by_cases hs : i < (layoutOf h).size a p
  · rw [Layout.get_bytes _ _ hs, Layout.get_bytes _ _ hs, ho]
    exact fun hh => hi (covers_of hv hk hs hh)
  · rw [List.getElem?_eq_none (by rw [Layout.length_bytes]; omega), List.getElem?_eq_none (by rw [Layout.length_bytes]; omega)]

/-- Nothing is written. -/
theorem Keeps.none {h h' : List Val} (hV : View (layoutOf h) h' (memOf h)) (hF : Frame (layoutOf h) h h') : Keeps (fun _ _ _ => False) h h' := by
  refine ⟨hF.1, fun a p l hl => ?_, fun a p x hx hq => hF.2 a p x hx fun q ⟨l, hl⟩ => hq q l hl⟩
  have hk : (layoutOf h).key a p := ⟨l, hl⟩
  have e : l = (layoutOf h).bytes (memOf h) a p := by
    have := view_of h a p hk
    rw [hl] at this
    simp only [Option.some.injEq, Val.arr.injEq] at this
    exact u8_inj this
  exact ⟨_, hV a p hk, by rw [e], fun i _ => by rw [← e]⟩

theorem NoOverlap.disjoint {h : List Val} {v w : Val} (hv : ByteSlice h v) (hw : ByteSlice h w) {k j : Nat} (hn : NoOverlap v k w j) :
    Slice.Disjoint ⟨(sliceOf h v).base, min k (sliceOf h v).len⟩ ⟨(sliceOf h w).base, min j (sliceOf h w).len⟩ := by
  rintro x ⟨h1, h2⟩
  rcases hv.at with ⟨rfl, h0⟩ | ⟨a, p, off, cap, hv', hk, hb, hl, hc⟩
  · simp only [Slice.Has, h0] at h1
    omega
  · have hx : x = (layoutOf h).addr a p + (x - (layoutOf h).addr a p) := by
      simp only [Slice.Has, hb] at h1
      omega
    have hs : x - (layoutOf h).addr a p < (layoutOf h).size a p := by
      simp only [Slice.Has, hb] at h1
      omega
    rw [hx] at h1 h2
    exact hn a p _ ⟨covers_of hv hk hs h1, covers_of hw hk hs h2⟩

theorem sameStart_of {h : List Val} {v w : Val} (hv : ByteSlice h v) (hw : ByteSlice h w) (h1 : 0 < sliceLen v) (h2 : 0 < sliceLen w)
    (hb : (sliceOf h v).base = (sliceOf h w).base) : SameStart v w := by
  rw [← sliceLen_eq h] at h1 h2
  rcases hv.at with ⟨rfl, h0⟩ | ⟨a, p, off, cap, ev, hk, hb1, hl, hc⟩
  · omega
  · rcases hw.at with ⟨rfl, h0⟩ | ⟨b, q, off', cap', ew, hk', hb2, hl', hc'⟩
    · omega
    · have hx := (layoutOf h).inj hk hk' (i := off) (j := off') (by omega) (by omega) (by omega)
      obtain ⟨rfl, rfl⟩ := hx
      obtain rfl : off = off' := by omega
      exact ⟨a, p, off, _, cap, _, cap', ev, ew⟩

theorem content_take (m : Mem) (s : Slice) (n : Nat) : Slice.content m ⟨s.base, min n s.len⟩ = (s.content m).take n := by
  apply List.ext_getElem?
  intro i
  rw [List.getElem?_take]
  simp only [Slice.content, List.getElem?_map]
  by_cases h : i < min n s.len
  · rw [List.getElem?_range h, if_pos (by omega), List.getElem?_range (by omega)]
  · rw [List.getElem?_eq_none (by simp; omega)]
    split
    · rw [List.getElem?_eq_none (by simp; omega)]
    · rfl

end GoLang
