import Verif.Model.Print
import Verif.Spec.Grammar
import Verif.Spec.Expr
import Verif.Spec.Meaning

/-!
# What printed expressions should mean

A printed expression should be a text of the expression language that means the expression.
-/

namespace Verif

/-- a name that can be written in the expression language -/
def IsName (n : String) : Prop := (Tok.id n).Valid

/-- the text is the decimal number `v`: digits, with a point or not, after a minus sign or not -/
def PlainNumber (text : String) (v : Num) : Prop :=
  ∃ ip fp, (Tok.num ip fp).Valid ∧ ((text.toList = (Tok.num ip fp).text ∧ v = .fin (decimal ip fp)) ∨
    (text.toList = '-' :: (Tok.num ip fp).text ∧ v = .fin (-decimal ip fp)))

/-- the same value, whatever the values of the names, both for the evaluation of expressions and for their meaning in a component -/
def SameValue (a b : Expr) : Prop := (∀ p, evaluate p a = evaluate p b) ∧ ∀ M t s, mden M a t s = mden M b t s

/-- the names and numbers of a node can be written -/
def WrittenNode (str : Num → String) : Expr → Prop
  | .lit v => PlainNumber (str v) v
  | .var n | .par n => IsName n
  | .cvar c n | .cpar c n | .pvar c n _ _ | .ppar c n _ _ | .portField c n => IsName c ∧ IsName n
  | _ => True

/-- all names and numbers can be written -/
def Written (str : Num → String) (e : Expr) : Prop := ∀ x ∈ e.subs, WrittenNode str x

/-- a node of arithmetic: a number, a known name, a field of a port, a sum that is not empty, a difference, a product, a quotient -/
def ArithmeticNode (ids : Identifiers) : Expr → Prop
  | .lit _ | .neg _ | .mul .. | .div .. | .portField .. => True
  | .var n => n ∈ ids.variables_
  | .par n => n ∉ ids.variables_ ∧ n ∈ ids.parameters
  | .add es => es ≠ []
  | _ => False

/-- an arithmetic expression -/
def Arithmetic (ids : Identifiers) (e : Expr) : Prop := ∀ x ∈ e.subs, ArithmeticNode ids x

/-- a time operator or an equality -/
def TimeOrEquality : Expr → Prop
  | .shift .. | .evalT .. | .tsum .. | .allsum _ => True
  | .cmp _ _ .eq => True
  | _ => False

end Verif
