import Verif.Spec.Net

/-!
# What an addition does to the blocks and to the outside world, when merging has side effects

`merge a b s` is the result of a call of the callback in state `s`, `none` when it panics, and the state after it.
-/
namespace NetSpec
open Net

/-- The block `c` with value `v` beside the blocks of `L`, from state `s`: while its buddy is in `L`, the callback is called once, with
the values of the two in address order, and its result is the value of the block they form. Nothing else happens. Ends with the
block and value when no buddy is left, or with `none` when the callback panics; `s'` is the state in the end. -/
inductive Joins {V σ : Type} (merge : V → V → σ → Option V × σ) (L : List (Cidr × V)) :
    Cidr → V → σ → Option (Cidr × V) → σ → Prop
  | stop {c : Cidr} {v : V} {s : σ} : (c.len = 0 ∨ ∀ w, (c.buddy, w) ∉ L) → Joins merge L c v s (some (c, v)) s
  | low {c : Cidr} {v w u : V} {s s1 s' : σ} {o : Option (Cidr × V)} : c.len ≠ 0 → (c.buddy, w) ∈ L → c.base < c.buddy.base →
      merge v w s = (some u, s1) → Joins merge L c.parent u s1 o s' → Joins merge L c v s o s'
  | high {c : Cidr} {v w u : V} {s s1 s' : σ} {o : Option (Cidr × V)} : c.len ≠ 0 → (c.buddy, w) ∈ L → c.buddy.base < c.base →
      merge w v s = (some u, s1) → Joins merge L c.parent u s1 o s' → Joins merge L c v s o s'
  | lowPanic {c : Cidr} {v w : V} {s s' : σ} : c.len ≠ 0 → (c.buddy, w) ∈ L → c.base < c.buddy.base →
      merge v w s = (none, s') → Joins merge L c v s none s'
  | highPanic {c : Cidr} {v w : V} {s s' : σ} : c.len ≠ 0 → (c.buddy, w) ∈ L → c.buddy.base < c.base →
      merge w v s = (none, s') → Joins merge L c v s none s'

end NetSpec
