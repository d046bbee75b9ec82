import Verif.Model.Parse
import Mathlib.Data.Nat.Digits.Defs

/-!
# The expression language

How texts are cut in tokens and what a list of tokens means, written as the usual grammar of arithmetic, with one rule per
line and one level per precedence.
-/

namespace Verif

/-- what a number means -/
def decimal (ip fp : List Char) : ℚ :=
  (Nat.ofDigits 10 ((ip ++ fp).reverse.map fun c => c.toNat - '0'.toNat) : ℕ) / 10 ^ fp.length

/-- words that are not identifiers -/
def keywords : List String := ["sum", "sum_connections", "t"]

namespace Tok

/-- how a token is written -/
def text : Tok → List Char
  | num ip [] => ip
  | num ip fp => ip ++ '.' :: fp
  | id n => n.toList
  | time => ['t']
  | cmp .le => ['<', '=']
  | cmp .ge => ['>', '=']
  | cmp .eq => ['=']
  | dot => ['.']
  | minus => ['-']
  | lpar => ['(']
  | rpar => [')']
  | slash => ['/']
  | star => ['*']
  | plus => ['+']
  | sum => "sum".toList
  | sumConnections => "sum_connections".toList
  | dotdot => ['.', '.']
  | comma => [',']
  | lbrack => ['[']
  | rbrack => [']']

def isDigit (c : Char) : Prop := c ∈ "0123456789".toList
def isLetter (c : Char) : Prop := c ∈ "abcdefghijklmnopqrstuvwxyzABCDEFGHIJKLMNOPQRSTUVWXYZ_".toList

/-- numbers have digits, identifiers start with a letter and go on with letters and digits -/
def Valid : Tok → Prop
  | num ip fp => ip ≠ [] ∧ (∀ c ∈ ip, isDigit c) ∧ ∀ c ∈ fp, isDigit c
  | id n => n ∉ keywords ∧ ∃ c cs, n.toList = c :: cs ∧ isLetter c ∧ ∀ d ∈ cs, isLetter d ∨ isDigit d
  | _ => True

/-- the text that follows would make the token longer -/
def Continues : Tok → List Char → Prop
  | num _ [], cs => (∃ c r, cs = c :: r ∧ isDigit c) ∨ ∃ c r, cs = '.' :: c :: r ∧ isDigit c
  | num _ _, cs => ∃ c r, cs = c :: r ∧ isDigit c
  | id _, cs | time, cs | sum, cs | sumConnections, cs => ∃ c r, cs = c :: r ∧ (isLetter c ∨ isDigit c)
  | dot, cs => ∃ r, cs = '.' :: r
  | _, _ => False

end Tok

/-- the text is made of these tokens, each as long as possible, with white space anywhere between them -/
inductive Spells : List Char → List Tok → Prop
  | nil : Spells [] []
  | space {c cs ts} : c ∈ [' ', '\t', '\r', '\n'] → Spells cs ts → Spells (c :: cs) ts
  | token {t : Tok} {cs ts} : t.Valid → ¬ t.Continues cs → Spells cs ts → Spells (t.text ++ cs) (t :: ts)

/-- what an identifier stands for: a variable, else a parameter -/
inductive Named (ids : Identifiers) : String → Expr → Prop
  | variable_ {n} : n ∈ ids.variables_ → Named ids n (.var n)
  | parameter {n} : n ∉ ids.variables_ → n ∈ ids.parameters → Named ids n (.par n)

/-- `e` at time `t + k` (`e` itself for the literal zero) -/
def atShift (e : Expr) : Expr → Expr
  | .lit v => if v = .fin 0 then e else .shift e (.lit v)
  | k => .shift e k

/-- the levels of the grammar -/
inductive Lvl where
  | comparison | sum | product | unary | primary | atom
  | shift | amount | signed | term | factor

/-- The grammar and the expression that a list of tokens stands for. -/
inductive Reads (ids : Identifiers) : Lvl → List Tok → Expr → Prop
  -- comparisons, from left to right
  | ofSum {ts e} : Reads ids .sum ts e → Reads ids .comparison ts e
  | compare {l r a b c} : Reads ids .comparison l a → Reads ids .sum r b → Reads ids .comparison (l ++ .cmp c :: r) (.cmp a b c)
  -- sums and differences, from left to right
  | ofProduct {ts e} : Reads ids .product ts e → Reads ids .sum ts e
  | add {l r a b} : Reads ids .sum l a → Reads ids .product r b → Reads ids .sum (l ++ .plus :: r) (a.addOp b)
  | sub {l r a b} : Reads ids .sum l a → Reads ids .product r b → Reads ids .sum (l ++ .minus :: r) (a.subOp b)
  -- products and quotients, from left to right
  | ofUnary {ts e} : Reads ids .unary ts e → Reads ids .product ts e
  | mul {l r a b} : Reads ids .product l a → Reads ids .unary r b → Reads ids .product (l ++ .star :: r) (a.mulOp b)
  | div {l r a b} : Reads ids .product l a → Reads ids .unary r b → Reads ids .product (l ++ .slash :: r) (a.divOp b)
  -- the sign binds more than the operators
  | ofPrimary {ts e} : Reads ids .primary ts e → Reads ids .unary ts e
  | neg {ts e} : Reads ids .unary ts e → Reads ids .unary (.minus :: ts) e.negOp
  -- the rest
  | ofAtom {ts e} : Reads ids .atom ts e → Reads ids .primary ts e
  | number {ip fp} : Reads ids .atom [.num ip fp] (.lit (.fin (decimal ip fp)))
  | identifier {n e} : Named ids n e → Reads ids .atom [.id n] e
  | portField {p f} : Reads ids .primary [.id p, .dot, .id f] (.portField p f)
  | paren {ts e} : Reads ids .comparison ts e → Reads ids .primary (.lpar :: ts ++ [.rpar]) e
  | allSum {ts e} : Reads ids .comparison ts e → Reads ids .primary (.sum :: .lpar :: ts ++ [.rpar]) (.allsum e)
  | timeSum {a b ts x y e} : Reads ids .shift a x → Reads ids .shift b y → Reads ids .comparison ts e →
      Reads ids .primary (.sum :: .lpar :: a ++ .dotdot :: b ++ .comma :: ts ++ [.rpar]) (.tsum e x y)
  | portSum {p f} : Reads ids .primary [.sumConnections, .lpar, .id p, .dot, .id f, .rpar] (.agg (.portField p f) .portSum)
  | expectation {ts e} : Reads ids .comparison ts e → Reads ids .primary (.id "expec" :: .lpar :: ts ++ [.rpar]) (.scen e .expectation)
  | timeShift {n e s k} : Named ids n e → Reads ids .shift s k → Reads ids .primary (.id n :: .lbrack :: s ++ [.rbrack]) (atShift e k)
  | timeIndex {n e ts k} : Named ids n e → Reads ids .comparison ts k → Reads ids .primary (.id n :: .lbrack :: ts ++ [.rbrack]) (.evalT e k)
  | timeShiftExpr {ts e s k} : Reads ids .comparison ts e → Reads ids .shift s k →
      Reads ids .primary (.lpar :: ts ++ .rpar :: .lbrack :: s ++ [.rbrack]) (atShift e k)
  | timeIndexExpr {ts e i k} : Reads ids .comparison ts e → Reads ids .comparison i k →
      Reads ids .primary (.lpar :: ts ++ .rpar :: .lbrack :: i ++ [.rbrack]) (.evalT e k)
  -- times `t`, `t + ...` and `t - ...`
  | now : Reads ids .shift [.time] (.lit 0)
  | later {s k} : Reads ids .amount s k → Reads ids .shift (.time :: s) k
  -- amounts: a first signed factor, which may be multiplied or divided by a term, then signed terms from left to right
  | ofSigned {s a} : Reads ids .signed s a → Reads ids .amount s a
  | signedMul {s ts a b} : Reads ids .signed s a → Reads ids .term ts b → Reads ids .amount (s ++ .star :: ts) (a.mulOp b)
  | signedDiv {s ts a b} : Reads ids .signed s a → Reads ids .term ts b → Reads ids .amount (s ++ .slash :: ts) (a.divOp b)
  | amountAdd {s ts a b} : Reads ids .amount s a → Reads ids .term ts b → Reads ids .amount (s ++ .plus :: ts) (a.addOp b)
  | amountSub {s ts a b} : Reads ids .amount s a → Reads ids .term ts b → Reads ids .amount (s ++ .minus :: ts) (a.subOp b)
  | positive {f a} : Reads ids .factor f a → Reads ids .signed (.plus :: f) a
  | negative {f a} : Reads ids .factor f a → Reads ids .signed (.minus :: f) a.negOp
  -- terms: products and quotients of factors, from left to right
  | ofFactor {f a} : Reads ids .factor f a → Reads ids .term f a
  | termMul {l r a b} : Reads ids .term l a → Reads ids .factor r b → Reads ids .term (l ++ .star :: r) (a.mulOp b)
  | termDiv {l r a b} : Reads ids .term l a → Reads ids .factor r b → Reads ids .term (l ++ .slash :: r) (a.divOp b)
  | factorAtom {ts e} : Reads ids .atom ts e → Reads ids .factor ts e
  | factorParen {ts e} : Reads ids .comparison ts e → Reads ids .factor (.lpar :: ts ++ [.rpar]) e

/-- no opening bracket just after a closing parenthesis -/
def NoPostfix (ts : List Tok) : Prop := ¬ [Tok.rpar, Tok.lbrack] <:+: ts

end Verif
