import Verif.Spec.Den

/-!
# Mathematical meaning of a model expression, read in a component

`den` (Spec/Den.lean) gives the meaning of expressions whose symbols carry their component.  An expression written in a
model has bare symbols and port references: it is read here in a component, with the list of values that the
connections attached to each of its ports give to each field.
-/

namespace Verif

/-- What is needed to read a model expression. -/
structure MCtx where
  D : DenCtx
  /-- the component whose symbols the bare names designate -/
  comp : String
  /-- for each port and field, the value brought by each attached connection -/
  ports : String → String → List (Int → Int → ℚ)

mutual
/-- Value of a model expression at timestep `t` and scenario `s`.  Same reading as `den`, and
* a bare variable or parameter is that of the component;
* a port field is the value brought by the only attached connection;
* a sum over connections is the sum of the values brought by all attached connections;
* a time shift, a timestep or a bound of a time sum is the value of the expression that gives it (a constant, see C09),
  read at timestep 0 and scenario 0.  The field `amt` of the data is not used. -/
def mden (M : MCtx) : Expr → Int → Int → ℚ
  | .lit (.fin q), _, _ => q
  | .lit _, _, _ => 0
  | .var n, t, s => M.D.env.var M.comp n (atT (M.D.vidx M.comp n) t) (atS (M.D.vidx M.comp n) s)
  | .par n, t, s => M.D.env.par M.comp n (atT (M.D.pidx M.comp n) t) (atS (M.D.pidx M.comp n) s)
  | .portField p f, t, s =>
    match M.ports p f with
    | [v] => v t s
    | _ => 0
  | .agg (.portField p f) _, t, s => ((M.ports p f).map fun v => v t s).sum
  | .agg _ _, _, _ => 0
  | .cmp .., _, _ => 0
  | .cvar c n, t, s => M.D.env.var c n (atT (M.D.vidx c n) t) (atS (M.D.vidx c n) s)
  | .cpar c n, t, s => M.D.env.par c n (atT (M.D.pidx c n) t) (atS (M.D.pidx c n) s)
  | .pvar c n ti si, t, s => M.D.env.var c n (ti.at t) (si.at s)
  | .ppar c n ti si, t, s => M.D.env.par c n (ti.at t) (si.at s)
  | .neg e, t, s => -(mden M e t s)
  | .add es, t, s => mdenSum M es t s
  | .mul l r, t, s => mden M l t s * mden M r t s
  | .div l r, t, s => mden M l t s / mden M r t s
  | .shift e k, t, s => mden M e (t + (mden M k 0 0).floor) s
  | .evalT e k, _, s => mden M e (mden M k 0 0).floor s
  | .tsum e a b, t, s => ∑ k ∈ Finset.Icc (mden M a 0 0).floor (mden M b 0 0).floor, mden M e (t + k) s
  | .allsum e, _, s => ∑ u ∈ Finset.range M.D.T, mden M e u s
  | .scen e _, t, _ => (∑ w ∈ Finset.range M.D.S, mden M e t w) / M.D.S
/-- sum of the values of the operands -/
def mdenSum (M : MCtx) : List Expr → Int → Int → ℚ
  | [], _, _ => 0
  | e :: es, t, s => mden M e t s + mdenSum M es t s
end

/-- sums over connections apply to port fields only, as `sum_connections` enforces -/
def Expr.AggPort (e : Expr) : Prop := ∀ x a, Expr.agg x a ∈ e.subs → ∃ p f, x = .portField p f

end Verif
