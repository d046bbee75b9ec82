import Verif.Model.Thermal

/-!
# Thermal clusters: what the preprocessing should compute
-/

namespace Verif

/-- entry of a table, hour by scenario -/
def Frame.at (f : Frame) (h s : Nat) : Option Num := (f.rows[h]?).bind (·[s]?)

/-- every line has all the columns, with finite numbers -/
def Frame.Finite (f : Frame) : Prop := ∀ row ∈ f.rows, row.length = f.width ∧ ∀ v ∈ row, ∃ q : ℚ, v = .fin q

/-- The hour before `h` when hours are grouped in periods of `p` hours (the last one may be shorter: there are `n` hours):
the hour before the first one of a period is the last one of that period.  Hour 0 is its own previous hour. -/
def previousHour (n p h : Nat) : Nat :=
  if h = 0 then 0 else if h % p = 0 then min (h + p - 1) (n - 1) else h - 1

/-- least number of units of capacity `cap` that provide `q` -/
def IsUnitCount (cap q : ℚ) (m : ℤ) : Prop := q ≤ m * cap ∧ (m - 1) * cap < q

end Verif
