import Verif.Lemmas.IpFold
import Verif.Props.SourceNetCopy

/-!
# C128: the value of a network that was put together, run from the text

How the tree joins networks, and in which steps it calls the callback, does not matter for a callback that is associative: the value of a network of the
list is the merge, from the lowest address up, of the values that were added in it.
-/
namespace Source
open GoLang NetSpec
open _root_.Net (IPNet Op)

section
variable {P : Prog} (hP : HostsNet P) {f : Val} {merge : Val → Val → Val} (hf : ∀ t, Computes P t f merge)
include hP hf

/-- **C128** Let no two calls add one address, and the callback be associative. Put where each call begins, with its value, in ascending order (`D`). The
value of every listed network is the merge, from left to right, of the values of the part of `D` that lies in it. -/
theorem C128_values (ha : ∀ a b c, merge (merge a b) c = merge a (merge b c)) {ops : List (Op Val)} {B : List (Nat × Val)}
    (hB : List.Forall₂ (fun op b => ∃ c, Target op c ∧ b = (c.base, valueOf op)) ops B) (hd : ops.Pairwise fun p q => ∀ a, Adds a p → ¬ Adds a q)
    {l : List (IPNet × Val)} (hl : Gives P f ops l) :
    ∃ D, D.Perm B ∧ D.Pairwise (fun b c => b.1 < c.1) ∧ ∀ n ∈ l, ∃ A b M C, D = A ++ b :: M ++ C ∧ (∀ d ∈ A ++ C, ¬ Contains n.1 d.1) ∧
      (∀ d ∈ b :: M, Contains n.1 d.1) ∧ n.2 = M.foldl (fun u d => merge u d.2) b.2 := by
  obtain ⟨r, hr, rfl⟩ := hl.runs hP hf
  exact _root_.Net.Runs_values ha hB hd hr

/-- **C128** With a callback that adds numbers, and every address added once, alone, with the number 1: the value of every listed network is the number of
addresses in it. -/
theorem C128_count (ha : ∀ a b c, merge (merge a b) c = merge a (merge b c)) (hm : ∀ x y, merge (.int x) (.int y) = .int (x + y)) {ips : List (List U8)}
    {us : List Nat} (hu : List.Forall₂ IPv4 ips us) (hn : us.Nodup) {l : List (IPNet × Val)} (hl : Gives P f (ips.map fun ip => .addIp ip (.int 1)) l) :
    ∀ n ∈ l, ∃ as : List Nat, as.Nodup ∧ (∀ a, a ∈ as ↔ Contains n.1 a) ∧ n.2 = .int as.length := by
  have hB : List.Forall₂ (fun (op : Op Val) (b : Nat × Val) => ∃ c, Target op c ∧ b = (c.base, valueOf op)) (ips.map fun ip => .addIp ip (.int 1))
      (us.map fun u => (u, .int 1)) := by
    rw [List.forall₂_map_left_iff, List.forall₂_map_right_iff]
    exact hu.imp fun ip u h => ⟨⟨u, 32⟩, ⟨u, h, rfl⟩, rfl⟩
  have hd : (ips.map fun ip => (.addIp ip (.int 1) : Op Val)).Pairwise fun p q => ∀ a, Adds a p → ¬ Adds a q := by
    rw [List.pairwise_map]
    clear hl hB
    induction hu with
    | nil => exact .nil
    | @cons ip u ips us h hu ih =>
      rw [List.nodup_cons] at hn
      refine List.pairwise_cons.mpr ⟨fun ip' hi a h1 h2 => hn.1 ?_, ih hn.2⟩
      have h1 : IPv4 ip a := h1
      rw [← _root_.Net.IPv4_unique h1 h]
      clear ih hn
      induction hu with
      | nil => cases hi
      | cons h' _ ih =>
        rcases List.mem_cons.mp hi with rfl | hi
        · rw [_root_.Net.IPv4_unique h2 h']
          exact List.mem_cons_self ..
        · exact List.mem_cons_of_mem _ (ih hi)
  have h4 : ∀ op ∈ (ips.map fun ip => (.addIp ip (.int 1) : Op Val)), IPv4Args op := by
    intro op ho
    obtain ⟨ip, hi, rfl⟩ := List.mem_map.mp ho
    clear hl hB hd ho hn
    induction hu with
    | nil => cases hi
    | cons h' _ ih =>
      rcases List.mem_cons.mp hi with rfl | hi
      · exact ⟨_, h'⟩
      · exact ih hi
  obtain ⟨D, d1, d2, d3⟩ := C128_values hP hf ha hB hd hl
  obtain ⟨r, hr, rfl⟩ := hl.runs hP hf
  intro n hn'
  obtain ⟨A, b, M, C, e, g1, g2, g3⟩ := d3 n hn'
  have hval : ∀ d ∈ D, d.2 = .int 1 := by
    intro d hd
    obtain ⟨u, -, rfl⟩ := List.mem_map.mp (d1.mem_iff.mp hd)
    rfl
  refine ⟨(b :: M).map Prod.fst, ?_, fun a => ⟨fun h => ?_, fun h => ?_⟩, ?_⟩
  · have : ((A ++ b :: M ++ C).map Prod.fst).Nodup := by
      rw [← e]
      exact (List.pairwise_map.mpr (d2.imp fun h => Nat.ne_of_lt h))
    rw [List.map_append, List.map_append] at this
    exact (List.nodup_append.mp (List.nodup_append.mp this).1).2.1
  · obtain ⟨d, hd, rfl⟩ := List.mem_map.mp h
    exact g2 d hd
  · obtain ⟨op, ho, h1⟩ := (_root_.Net.C16_exact _ h4 hr a).mp ⟨n, hn', h⟩
    have hmem : (a, Val.int 1) ∈ D := by
      rw [d1.mem_iff]
      obtain ⟨ip, hi, rfl⟩ := List.mem_map.mp ho
      have h1 : IPv4 ip a := h1
      clear hr hl hB hd h4 d1 ho hn hn' d3
      induction hu with
      | nil => cases hi
      | cons h' _ ih =>
        rcases List.mem_cons.mp hi with rfl | hi
        · rw [_root_.Net.IPv4_unique h1 h']
          exact List.mem_cons_self ..
        · exact List.mem_cons_of_mem _ (ih hi)
    rw [e, List.append_assoc, List.mem_append, List.mem_append] at hmem
    rcases hmem with h' | h' | h'
    · exact absurd h (g1 _ (List.mem_append_left _ h'))
    · exact List.mem_map_of_mem h'
    · exact absurd h (g1 _ (List.mem_append_right _ h'))
  · have hall : ∀ d ∈ b :: M, d.2 = .int 1 := fun d hd => hval d (by rw [e]; exact List.mem_append_left _ (List.mem_append_right _ hd))
    have sum : ∀ (M : List (Nat × Val)) (k : Nat), (∀ d ∈ M, d.2 = .int 1) → M.foldl (fun u d => merge u d.2) (.int k) = .int ((k + M.length : Nat) : Int) := by
      intro M
      induction M with
      | nil => intro k _; simp
      | cons d M ih =>
        intro k h
        rw [List.foldl_cons, h d (by simp), hm, show ((k : Int) + 1) = ((k + 1 : Nat) : Int) by simp, ih (k + 1) fun d hd => h d (by simp [hd]), List.length_cons]
        congr 2
        omega
    have := sum M 1 fun d hd => hall d (by simp [hd])
    rw [g3, hall b (by simp)]
    rw [show (1 : Int) = ((1 : Nat) : Int) from rfl, this]
    simp [Nat.add_comm]

/-- **C128** The same with calls of AddRange, whose value counts once for every network of the greedy split of the range. -/
theorem C128_ranges (ha : ∀ a b c, merge (merge a b) c = merge a (merge b c)) {ops : List (Op Val)} {B : List (List (Nat × Val))}
    (hB : List.Forall₂ (fun op b => IPv4Args op ∧ ∃ lo hi cs, (∀ a, Adds a op ↔ lo ≤ a ∧ a ≤ hi) ∧ Greedy hi lo cs ∧ b = cs.map fun c => (c.base, valueOf op)) ops B)
    (hd : ops.Pairwise fun p q => ∀ a, Adds a p → ¬ Adds a q) {l : List (IPNet × Val)} (hl : Gives P f ops l) :
    ∃ D, D.Perm B.flatten ∧ D.Pairwise (fun b c => b.1 < c.1) ∧ ∀ n ∈ l, ∃ A b M C, D = A ++ b :: M ++ C ∧ (∀ d ∈ A ++ C, ¬ Contains n.1 d.1) ∧
      (∀ d ∈ b :: M, Contains n.1 d.1) ∧ n.2 = M.foldl (fun u d => merge u d.2) b.2 := by
  obtain ⟨r, hr, rfl⟩ := hl.runs hP hf
  exact _root_.Net.Runs_values_ranges ha hB hd hr

open Classical in
/-- **C128** If the callback is also idempotent, and `ops'` are the calls from the lowest addresses up: the value of every listed network is the merge of the
values of the calls that add an address of it, each once, however a range was split. -/
theorem C128_once (ha : ∀ a b c, merge (merge a b) c = merge a (merge b c)) (hi : ∀ a, merge a a = a) {ops ops' : List (Op Val)} (hp : ops'.Perm ops)
    (h4 : ∀ op ∈ ops, IPv4Args op) (hs : ops'.Pairwise fun p q => ∀ a b, Adds a p → Adds b q → a < b) {l : List (IPNet × Val)} (hl : Gives P f ops l) :
    ∀ n ∈ l, ∃ b M, ops'.filter (fun op => decide (∃ a, Contains n.1 a ∧ Adds a op)) = b :: M ∧
      n.2 = M.foldl (fun u op => merge u (valueOf op)) (valueOf b) := by
  obtain ⟨r, hr, rfl⟩ := hl.runs hP hf
  exact _root_.Net.Runs_values_once ha hi hp h4 hs hr

end

/-! ## Examples -/

theorem sumVals_assoc (a b c : Val) : sumVals (sumVals a b) c = sumVals a (sumVals b c) := by
  cases a <;> cases b <;> cases c <;> simp [sumVals, Int.add_assoc]

/-- The three calls of `copy_list`: 7 is the value of 9.9.9.9, and 1 + 2 of the two others. -/
example : ∃ D : List (Nat × Val), D.Perm [(0x0a000004, .int 1), (0x0a000005, .int 2), (0x09090909, .int 7)] ∧ D.Pairwise (fun b c => b.1 < c.1) ∧
    ∃ A b M C, D = A ++ b :: M ++ C ∧ (∀ d ∈ A ++ C, ¬ Contains ⟨[10, 0, 0, 4], [255, 255, 255, 254]⟩ d.1) ∧
      (∀ d ∈ b :: M, Contains ⟨[10, 0, 0, 4], [255, 255, 255, 254]⟩ d.1) ∧ .int 3 = M.foldl (fun u d => sumVals u d.2) b.2 := by
  have i4 : IPv4 [10, 0, 0, 4] 0x0a000004 := _root_.Net.IPv4_of_len4 rfl
  have i5 : IPv4 [10, 0, 0, 5] 0x0a000005 := _root_.Net.IPv4_of_len4 rfl
  have i9 : IPv4 [9, 9, 9, 9] 0x09090909 := _root_.Net.IPv4_of_len4 rfl
  have ne : ∀ {s t : List U8} {u v : Nat} {x y : Val}, IPv4 s u → IPv4 t v → u ≠ v → ∀ a, Adds a (.addIp s x) → ¬ Adds a (.addIp t y) :=
    fun hs ht hne a h1 h2 => hne ((_root_.Net.IPv4_unique hs h1).trans (_root_.Net.IPv4_unique h2 ht))
  obtain ⟨D, h1, h2, h3⟩ := C128_values netProg_hosts netProg_computes sumVals_assoc
    (ops := [.addIp [10, 0, 0, 4] (.int 1), .addIp [10, 0, 0, 5] (.int 2), .addIp [9, 9, 9, 9] (.int 7)])
    (B := [(0x0a000004, .int 1), (0x0a000005, .int 2), (0x09090909, .int 7)])
    (.cons ⟨⟨0x0a000004, 32⟩, ⟨_, i4, rfl⟩, rfl⟩ (.cons ⟨⟨0x0a000005, 32⟩, ⟨_, i5, rfl⟩, rfl⟩ (.cons ⟨⟨0x09090909, 32⟩, ⟨_, i9, rfl⟩, rfl⟩ .nil)))
    (by
      refine .cons ?_ (.cons ?_ (.cons ?_ .nil))
      · rintro q (_ | ⟨_, _ | ⟨_, ⟨⟩⟩⟩)
        · exact ne i4 i5 (by decide)
        · exact ne i4 i9 (by decide)
      · rintro q (_ | ⟨_, ⟨⟩⟩)
        exact ne i5 i9 (by decide)
      · rintro q ⟨⟩) copy_list
  exact ⟨D, h1, h2, h3 (⟨[10, 0, 0, 4], [255, 255, 255, 254]⟩, .int 3) (by simp)⟩

/-- Three addresses counted: there is a list, and its values are the numbers of addresses. -/
example : ∃ l, Gives netProg (.native 0) ([[10, 0, 0, 5], [9, 9, 9, 9], [10, 0, 0, 4]].map fun ip => .addIp ip (.int 1)) l ∧
    ∀ n ∈ l, ∃ as : List Nat, as.Nodup ∧ (∀ a, a ∈ as ↔ Contains n.1 a) ∧ n.2 = .int as.length := by
  obtain ⟨l, hl⟩ := C123_any netProg_hosts netProg_computes ([[10, 0, 0, 5], [9, 9, 9, 9], [10, 0, 0, 4]].map fun ip => .addIp ip (.int 1))
    (by rintro op (_ | ⟨_, _ | ⟨_, _ | ⟨_, ⟨⟩⟩⟩⟩) <;> trivial) (by intro a e x h; simp at h)
  exact ⟨l, hl, C128_count netProg_hosts netProg_computes sumVals_assoc (fun _ _ => rfl) (us := [0x0a000005, 0x09090909, 0x0a000004])
    (.cons (_root_.Net.IPv4_of_len4 rfl) (.cons (_root_.Net.IPv4_of_len4 rfl) (.cons (_root_.Net.IPv4_of_len4 rfl) .nil))) (by decide) hl⟩

/-- A range and an address after it, 10.0.0.3 to 10.0.0.4 and 10.0.0.5. -/
def rangeOps : List (Op Val) := [.addRange [10, 0, 0, 3] [10, 0, 0, 4] (.int 1), .addIp [10, 0, 0, 5] (.int 2)]

theorem rangeOps_greedy : Greedy 0x0a000004 0x0a000003 [⟨0x0a000003, 32⟩, ⟨0x0a000004, 32⟩] := by
  refine .next (k := 0) (by decide) (by decide) (by decide) (fun j hj h1 h2 => ?_)
    (.next (k := 0) (by decide) (by decide) (by decide) (fun j hj h1 h2 => ?_) (.done (by decide)))
  all_goals
    rcases j with _ | j
    · exact Nat.le_refl 0
    · rw [Nat.pow_succ] at h1 h2
      have := Nat.one_le_two_pow (n := j)
      have := Nat.dvd_trans (Nat.dvd_mul_left 2 (2 ^ j)) h1
      omega

theorem rangeOps_lt : rangeOps.Pairwise fun p q => ∀ a b, Adds a p → Adds b q → a < b := by
  refine .cons ?_ (.cons (by rintro q ⟨⟩) .nil)
  rintro q (_ | ⟨_, ⟨⟩⟩) a b ⟨s, e, -, he, -, hae⟩ hb
  have i5 : IPv4 [10, 0, 0, 5] 0x0a000005 := _root_.Net.IPv4_of_len4 rfl
  have i4 : IPv4 [10, 0, 0, 4] 0x0a000004 := _root_.Net.IPv4_of_len4 rfl
  rw [_root_.Net.IPv4_unique hb i5]
  rw [_root_.Net.IPv4_unique he i4] at hae
  omega

theorem rangeOps_args : ∀ op ∈ rangeOps, IPv4Args op := by
  rintro op (_ | ⟨_, _ | ⟨_, ⟨⟩⟩⟩)
  · exact ⟨⟨_, _root_.Net.IPv4_of_len4 rfl⟩, ⟨_, _root_.Net.IPv4_of_len4 rfl⟩⟩
  · exact ⟨_, _root_.Net.IPv4_of_len4 rfl⟩

/-- The range is split in two addresses, so its value counts for 10.0.0.3 and once more in 10.0.0.4/31. -/
example : ∃ l, Gives netProg (.native 0) rangeOps l ∧ ∃ D : List (Nat × Val),
    D.Perm [(0x0a000003, .int 1), (0x0a000004, .int 1), (0x0a000005, .int 2)] ∧ D.Pairwise (fun b c => b.1 < c.1) ∧
    ∀ n ∈ l, ∃ A b M C, D = A ++ b :: M ++ C ∧ (∀ d ∈ A ++ C, ¬ Contains n.1 d.1) ∧
      (∀ d ∈ b :: M, Contains n.1 d.1) ∧ n.2 = M.foldl (fun u d => sumVals u d.2) b.2 := by
  have i3 : IPv4 [10, 0, 0, 3] 0x0a000003 := _root_.Net.IPv4_of_len4 rfl
  have i4 : IPv4 [10, 0, 0, 4] 0x0a000004 := _root_.Net.IPv4_of_len4 rfl
  have i5 : IPv4 [10, 0, 0, 5] 0x0a000005 := _root_.Net.IPv4_of_len4 rfl
  obtain ⟨l, hl⟩ := C123_any netProg_hosts netProg_computes rangeOps (by rintro op (_ | ⟨_, _ | ⟨_, ⟨⟩⟩⟩) <;> trivial) (by
    intro a e x h h'
    simp only [rangeOps, List.mem_cons, Op.addRange.injEq, reduceCtorEq, List.not_mem_nil, or_false] at h
    obtain ⟨rfl, rfl, rfl⟩ := h
    exact absurd (_root_.Net.IPv4_unique h' i4) (by decide))
  refine ⟨l, hl, C128_ranges netProg_hosts netProg_computes sumVals_assoc (ops := rangeOps)
    (B := [[(0x0a000003, .int 1), (0x0a000004, .int 1)], [(0x0a000005, .int 2)]])
    (.cons ⟨rangeOps_args _ (by simp [rangeOps]), _, _, _, fun a => ⟨?_, fun h => ⟨_, _, i3, i4, h⟩⟩, rangeOps_greedy, rfl⟩
      (.cons ⟨rangeOps_args _ (by simp [rangeOps]), 0x0a000005, 0x0a000005, [⟨0x0a000005, 32⟩], fun a => ⟨?_, fun h => ?_⟩, ?_, rfl⟩ .nil))
    (rangeOps_lt.imp fun h a h1 h2 => Nat.lt_irrefl a (h a a h1 h2)) hl⟩
  · rintro ⟨s, e, hs, he, h⟩
    rwa [_root_.Net.IPv4_unique hs i3, _root_.Net.IPv4_unique he i4] at h
  · intro h
    rw [_root_.Net.IPv4_unique h i5]
    exact ⟨Nat.le_refl _, Nat.le_refl _⟩
  · rw [Nat.le_antisymm h.2 h.1]
    exact i5
  · refine .next (k := 0) (by decide) (by decide) (by decide) (fun j hj h1 h2 => ?_) (.done (by decide))
    rcases j with _ | j
    · exact Nat.le_refl 0
    · rw [Nat.pow_succ] at h1 h2
      have := Nat.one_le_two_pow (n := j)
      omega

/-- A program with the package, whose function number 0 returns its first argument. -/
def firstProg : Prog :=
  { W := 64, pkgs := [Net.pkg], other := fun _ _ => none, std := stdlib,
    native := fun _ _ args => match args with
      | [a, _] => pure a
      | _ => stuck
    grow := fun n => n }

theorem firstProg_hosts : HostsNet firstProg := ⟨⟨Net.pkg, Net.text, by kernel_rfl⟩, rfl, by kernel_rfl, by kernel_rfl⟩

theorem firstProg_computes (t : Nat) : Computes firstProg t (.native 0) fun a _ => a where
  fn := ⟨0, rfl, fun h _ _ _ _ => ⟨h, fun _ => rfl, rfl, .refl h⟩⟩
  plain := fun _ _ h _ => h

open Classical in
/-- The same calls with a callback that keeps its first argument, so that 10.0.0.4/31 has the value of the range. -/
example : ∃ l, Gives firstProg (.native 0) rangeOps l ∧ ∀ n ∈ l, ∃ b M,
    rangeOps.filter (fun op => decide (∃ a, Contains n.1 a ∧ Adds a op)) = b :: M ∧ n.2 = M.foldl (fun u _ => u) (valueOf b) := by
  have i4 : IPv4 [10, 0, 0, 4] 0x0a000004 := _root_.Net.IPv4_of_len4 rfl
  obtain ⟨l, hl⟩ := C123_any firstProg_hosts firstProg_computes rangeOps (by rintro op (_ | ⟨_, _ | ⟨_, ⟨⟩⟩⟩) <;> trivial) (by
    intro a e x h h'
    simp only [rangeOps, List.mem_cons, Op.addRange.injEq, reduceCtorEq, List.not_mem_nil, or_false] at h
    obtain ⟨rfl, rfl, rfl⟩ := h
    exact absurd (_root_.Net.IPv4_unique h' i4) (by decide))
  exact ⟨l, hl, C128_once firstProg_hosts firstProg_computes (fun _ _ _ => rfl) (fun _ => rfl) (.refl _) rangeOps_args rangeOps_lt hl⟩

end Source
