import Verif.Model.Num

/-!
# Python loops and dictionaries

A dict is an association list in insertion order; assigning to an existing key keeps its position.
-/

namespace Verif

/-- A Python loop `for x in l: res.append(f(x))`, or the list comprehension `[f(x) for x in l]`, where `f` may
raise. -/
def appendAll {α β} (f : α → R β) : List α → R (List β)
  | [] => .ok []
  | x :: xs => do
    let y ← f x
    let ys ← appendAll f xs
    .ok (y :: ys)

abbrev Dict (α β : Type) := List (α × β)

namespace Dict
variable {α β : Type} [DecidableEq α]

/-- `d.get(k)` -/
def get? : Dict α β → α → Option β
  | [], _ => none
  | (k', v) :: d, k => if k' = k then some v else get? d k

/-- `k in d` -/
def contains (d : Dict α β) (k : α) : Bool := (d.get? k).isSome

/-- `d[k] = v` -/
def set : Dict α β → α → β → Dict α β
  | [], k, v => [(k, v)]
  | (k', v') :: d, k, v => if k' = k then (k', v) :: d else (k', v') :: set d k v

/-- `del d[k]` for a present key -/
def erase : Dict α β → α → Dict α β
  | [], _ => []
  | (k', v') :: d, k => if k' = k then d else (k', v') :: erase d k

def keys (d : Dict α β) : List α := d.map Prod.fst
def values (d : Dict α β) : List β := d.map Prod.snd

/-- `d[k]`: `KeyError` when absent -/
def get (d : Dict α β) (k : α) : R β :=
  match d.get? k with
  | some v => .ok v
  | none => .error (.keyError "")

/-- `d.update(e)` -/
def update (d e : Dict α β) : Dict α β := e.foldl (fun d kv => d.set kv.1 kv.2) d

/-- `{k1: v1, ...}` or a dict comprehension over the given items: later items win -/
def ofItems (l : List (α × β)) : Dict α β := l.foldl (fun d kv => set d kv.1 kv.2) []

end Dict
end Verif
