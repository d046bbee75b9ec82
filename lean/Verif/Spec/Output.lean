import Verif.Model.Output

/-! # What output values should be -/

namespace Verif

/-- values for `S` scenarios and `T` timesteps, as they are presented: a number for one timestep of one scenario, a list
over the scenarios for one timestep, otherwise a list over the scenarios of the lists over time -/
def shaped (S T : Nat) (f : Nat → Nat → Num) : OutValue :=
  if T = 1 then
    if S = 1 then .num (f 0 0) else .list ((List.range S).map fun s => .num (f 0 s))
  else .list ((List.range S).map fun s => .row ((List.range T).map fun t => f t s))

/-- the variable `v` of component `c`, if the output has one -/
def Output.lookup (o : Output) (c v : String) : Option OutVar :=
  (o.components.get? c).bind fun k => k.variables_.get? v

end Verif
