import Verif.Model.Visitors

/-!
# Parsing expressions

Models `expression/parsing/parse_expression.py`, the generated lexer and parser of `expression/parsing/antlr` (rules of
`grammar/Expr.g4`) and the part of the ANTLR runtime they use.  `adaptivePredict` is replaced by the tests on the next
tokens to which it amounts for this grammar, see each case; when two alternatives match (the continuation of `right_expr`)
the runtime takes the first one, i.e. it continues the loop.  Exceptions raised during parsing all become
`AntaresParseException`, whose message is not kept.
-/

namespace Verif

/-- Tokens: Expr.g4 16-35, 47, 59-60, 76-79 (`T__0` to `T__12`, NUMBER, TIME, IDENTIFIER, COMPARISON of ExprLexer.py
1151-1168).  A number keeps its digits before and after the point. -/
inductive Tok where
  | num (ip fp : List Char)
  | id (n : String)
  | time
  | cmp (c : Cmp)
  | dot
  | minus
  | lpar
  | rpar
  | slash
  | star
  | plus
  | sum
  | sumConnections
  | dotdot
  | comma
  | lbrack
  | rbrack
  deriving DecidableEq, Repr

/-- `DIGIT`: Expr.g4 72. -/
def isDigitC (c : Char) : Bool := '0' ≤ c && c ≤ '9'
/-- `CHAR`: Expr.g4 73. -/
def isCharC (c : Char) : Bool := ('a' ≤ c && c ≤ 'z') || ('A' ≤ c && c ≤ 'Z') || c == '_'
/-- `CHAR_OR_DIGIT`: Expr.g4 74. -/
def isWordC (c : Char) : Bool := isCharC c || isDigitC c
/-- `WS`: Expr.g4 81. -/
def isWsC (c : Char) : Bool := c == ' ' || c == '\t' || c == '\r' || c == '\n'

/-- The token of a word: the keywords (Expr.g4 28-30, 77) come before IDENTIFIER (78) in the lexer. -/
def wordTok (w : List Char) : Tok :=
  if w = ['s', 'u', 'm'] then .sum
  else if w = "sum_connections".toList then .sumConnections
  else if w = ['t'] then .time
  else .id (String.ofList w)

/-- One step of `Lexer.nextToken` of the ANTLR runtime on a text that starts with `c`: the longest match, or the characters skipped (white space,
Expr.g4 81; characters that start no token, which `Lexer.recover` skips after a message on the console). -/
def lexOne (c : Char) (cs : List Char) : Option Tok × List Char :=
  if isWsC c then (none, cs)
  else if isDigitC c then
    let ip := c :: cs.takeWhile isDigitC
    match cs.dropWhile isDigitC with
    | '.' :: d :: r =>
      if isDigitC d then (some (.num ip (d :: r.takeWhile isDigitC)), r.dropWhile isDigitC)
      else (some (.num ip []), '.' :: d :: r)
    | r => (some (.num ip []), r)
  else if isCharC c then (some (wordTok (c :: cs.takeWhile isWordC)), cs.dropWhile isWordC)
  else match c with
    | '-' => (some .minus, cs)
    | '(' => (some .lpar, cs)
    | ')' => (some .rpar, cs)
    | '/' => (some .slash, cs)
    | '*' => (some .star, cs)
    | '+' => (some .plus, cs)
    | ',' => (some .comma, cs)
    | '[' => (some .lbrack, cs)
    | ']' => (some .rbrack, cs)
    | '=' => (some (.cmp .eq), cs)
    | '.' => match cs with
      | '.' :: r => (some .dotdot, r)
      | _ => (some .dot, cs)
    | '<' => match cs with
      | '=' :: r => (some (.cmp .le), r)
      | _ => (none, cs.tail)      -- `recover` skips one more character
    | '>' => match cs with
      | '=' :: r => (some (.cmp .ge), r)
      | _ => (none, cs.tail)
    | _ => (none, cs)

/-- All tokens of a text: `CommonTokenStream(ExprLexer(InputStream(text)))`, parse_expression.py 250-252.  The number is a
bound on the steps; each one skips a character at least. -/
def lexAux : Nat → List Char → List Tok
  | 0, _ => []
  | _, [] => []
  | n + 1, c :: cs =>
    match lexOne c cs with
    | (none, r) => lexAux n r
    | (some t, r) => t :: lexAux n r

def lex (text : String) : List Tok := lexAux text.toList.length text.toList

/-- Operators of the alternatives muldiv, shiftMuldiv and rightMuldiv. -/
inductive MulOp where
  | mul
  | div
  deriving DecidableEq, Repr

/-- Operators of the alternatives addsub, shiftAddsub, signedAtom and signedExpression. -/
inductive AddOp where
  | add
  | sub
  deriving DecidableEq, Repr

/-- Parse trees: one constructor per labelled alternative of Expr.g4 (the context classes of ExprParser.py); `unsignedAtom`,
`rightAtom` and `portField` only forward to their child and are left out. -/
inductive PT where
  | num (ip fp : List Char)                 -- 39
  | ident (n : String)                      -- 40
  | portField (p f : String)                -- 16, 22
  | neg (e : PT)                            -- 23
  | paren (e : PT)                          -- 24
  | muldiv (op : MulOp) (l r : PT)          -- 25
  | addsub (op : AddOp) (l r : PT)          -- 26
  | cmp (c : Cmp) (l r : PT)                -- 27
  | allSum (e : PT)                         -- 28
  | portSum (p f : String)                  -- 29
  | timeSum (a b e : PT)                    -- 30
  | func (n : String) (e : PT)              -- 31
  | timeShift (n : String) (s : PT)         -- 32
  | timeIndex (n : String) (e : PT)         -- 33
  | timeShiftExpr (e s : PT)                -- 34
  | timeIndexExpr (e i : PT)                -- 35
  | shift0                                  -- 47, without shift_expr
  | shift (s : PT)                          -- 47
  | shiftMuldiv (op : MulOp) (l r : PT)     -- 59
  | shiftAddsub (op : AddOp) (l r : PT)     -- 60
  | signedAtom (op : AddOp) (a : PT)        -- 61
  | signedExpr (op : AddOp) (e : PT)        -- 62
  | rightMuldiv (op : MulOp) (l r : PT)     -- 66
  | rightExpr (e : PT)                      -- 67
  deriving DecidableEq, Repr

/-- The functions of ExprParser.py: `expr(p)` (1741-2018) with its two parts, first alternatives and loop; `shift`
(2118-2145), `shift_expr` (2230-2360) with its two parts; `right_expr(p)` (2429-2507) with its two parts. -/
inductive Job where
  | expr (p : Nat)
  | prim
  | loop (p : Nat) (l : PT)
  | shift
  | shiftPrim
  | shiftLoop (l : PT)
  | right (p : Nat)
  | rightPrim
  | rightLoop (p : Nat) (l : PT)

/-- `_la == 5 or _la == 6`: ExprParser.py 1950 etc. -/
def mulOp? : Tok → Option MulOp
  | .slash => some .div
  | .star => some .mul
  | _ => none

/-- `_la == 2 or _la == 7`: ExprParser.py 1976 etc. -/
def addOp? : Tok → Option AddOp
  | .minus => some .sub
  | .plus => some .add
  | _ => none

/-- `self.match(token)`; `BailErrorStrategy` gives up at the first mismatch. -/
def expect (t : Tok) : List Tok → Option (List Tok)
  | u :: r => if u = t then some r else none
  | [] => none

/-- The parser: the rule functions of ExprParser.py on the remaining tokens, giving the parse tree and the tokens left, or `none`
where the parser gives up (`ParseCancellationException`).  The first argument bounds the depth of calls (`parseTokens`
gives enough). -/
def parseJob : Nat → Job → List Tok → Option (PT × List Tok)
  | 0, _, _ => none
  -- expr(_p): 1741-2018
  | n + 1, .expr p, ts => do
    let (l, ts) ← parseJob n .prim ts
    parseJob n (.loop p l) ts
  -- the alternatives of decision 0: 1752-1921.  The next tokens tell them apart, except alternatives 4, 11 and 12, that
  -- differ after the closing parenthesis.
  | n + 1, .prim, ts =>
    match ts with
    | .num ip fp :: r => some (.num ip fp, r)
    | .id p :: .dot :: r =>
      match r with
      | .id f :: r => some (.portField p f, r)
      | _ => none
    | .minus :: r => do
      let (e, r) ← parseJob n (.expr 13) r
      some (.neg e, r)
    | .lpar :: r => do
      let (e, r) ← parseJob n (.expr 0) r
      let r ← expect .rpar r
      match r with
      | .lbrack :: .time :: r => do
        let (s, r) ← parseJob n .shift (.time :: r)
        let r ← expect .rbrack r
        some (.timeShiftExpr e s, r)
      | .lbrack :: r => do
        let (i, r) ← parseJob n (.expr 0) r
        let r ← expect .rbrack r
        some (.timeIndexExpr e i, r)
      | r => some (.paren e, r)
    | .sum :: .lpar :: .time :: r => do
      let (a, r) ← parseJob n .shift (.time :: r)
      let r ← expect .dotdot r
      let (b, r) ← parseJob n .shift r
      let r ← expect .comma r
      let (e, r) ← parseJob n (.expr 0) r
      let r ← expect .rpar r
      some (.timeSum a b e, r)
    | .sum :: .lpar :: r => do
      let (e, r) ← parseJob n (.expr 0) r
      let r ← expect .rpar r
      some (.allSum e, r)
    | .sumConnections :: .lpar :: .id p :: .dot :: .id f :: .rpar :: r => some (.portSum p f, r)
    | .id x :: .lpar :: r => do
      let (e, r) ← parseJob n (.expr 0) r
      let r ← expect .rpar r
      some (.func x e, r)
    | .id x :: .lbrack :: .time :: r => do
      let (s, r) ← parseJob n .shift (.time :: r)
      let r ← expect .rbrack r
      some (.timeShift x s, r)
    | .id x :: .lbrack :: r => do
      let (e, r) ← parseJob n (.expr 0) r
      let r ← expect .rbrack r
      some (.timeIndex x e, r)
    | .id x :: r => some (.ident x, r)
    | _ => none
  -- the loop of expr: 1922-2007; `precpred(ctx, k)` is `k >= _p`
  | n + 1, .loop p l, ts =>
    match ts with
    | t :: r =>
      match mulOp? t, addOp? t, t with
      | some op, _, _ =>
        if p ≤ 11 then do
          let (e, r) ← parseJob n (.expr 12) r
          parseJob n (.loop p (.muldiv op l e)) r
        else some (l, ts)
      | none, some op, _ =>
        if p ≤ 10 then do
          let (e, r) ← parseJob n (.expr 11) r
          parseJob n (.loop p (.addsub op l e)) r
        else some (l, ts)
      | none, none, .cmp c =>
        if p ≤ 9 then do
          let (e, r) ← parseJob n (.expr 10) r
          parseJob n (.loop p (.cmp c l e)) r
        else some (l, ts)
      | none, none, _ => some (l, ts)
    | [] => some (l, [])
  -- shift: 2118-2145
  | n + 1, .shift, ts => do
    let r ← expect .time ts
    match r with
    | t :: r' =>
      if (addOp? t).isSome then do
        let (s, r) ← parseJob n .shiftPrim (t :: r')
        let (s, r) ← parseJob n (.shiftLoop s) r
        some (.shift s, r)
      else some (.shift0, r)
    | [] => some (.shift0, [])
  -- shift_expr(0), first alternatives: 2242-2283 (`_p` is always 0)
  | n + 1, .shiftPrim, ts =>
    match ts with
    | t :: r =>
      match addOp? t with
      | none => none
      | some op =>
        match r with
        | .num ip fp :: r => some (.signedAtom op (.num ip fp), r)
        | .id x :: r => some (.signedAtom op (.ident x), r)
        | .lpar :: r => do
          let (e, r) ← parseJob n (.expr 0) r
          let r ← expect .rpar r
          some (.signedExpr op e, r)
        | _ => none
    | [] => none
  -- shift_expr, loop: 2284-2353
  | n + 1, .shiftLoop l, ts =>
    match ts with
    | t :: r =>
      match mulOp? t, addOp? t with
      | some op, _ => do
        let (e, r) ← parseJob n (.right 0) r
        parseJob n (.shiftLoop (.shiftMuldiv op l e)) r
      | none, some op => do
        let (e, r) ← parseJob n (.right 0) r
        parseJob n (.shiftLoop (.shiftAddsub op l e)) r
      | none, none => some (l, ts)
    | [] => some (l, [])
  -- right_expr(_p): 2429-2507
  | n + 1, .right p, ts => do
    let (l, ts) ← parseJob n .rightPrim ts
    parseJob n (.rightLoop p l) ts
  -- first alternatives: 2441-2465
  | n + 1, .rightPrim, ts =>
    match ts with
    | .num ip fp :: r => some (.num ip fp, r)
    | .id x :: r => some (.ident x, r)
    | .lpar :: r => do
      let (e, r) ← parseJob n (.expr 0) r
      let r ← expect .rpar r
      some (.rightExpr e, r)
    | _ => none
  -- loop: 2466-2500
  | n + 1, .rightLoop p l, ts =>
    match ts with
    | t :: r =>
      match mulOp? t with
      | some op =>
        if p ≤ 3 then do
          let (e, r) ← parseJob n (.right 4) r
          parseJob n (.rightLoop p (.rightMuldiv op l e)) r
        else some (l, ts)
      | none => some (l, ts)
    | [] => some (l, [])

/-- `fullexpr`: Expr.g4 18, ExprParser.py 1432-1447. -/
def parseTokens (ts : List Tok) : Option PT :=
  match parseJob (3 * ts.length + 2) (.expr 0) ts with
  | some (e, []) => some e
  | _ => none

/-- `ModelIdentifiers`: parse_expression.py 31-44. -/
structure Identifiers where
  variables_ : List String
  parameters : List String

/-- What a visit method returns: an expression node, `None`, or a node with `None` among its descendants (its content is
not kept). -/
inductive PVal where
  | node (e : Expr)
  | none
  | holed
  deriving Repr

/-- the number written with these digits -/
def digitsVal (ds : List Char) : Nat := ds.foldl (fun n c => 10 * n + (c.toNat - '0'.toNat)) 0

/-- `float(text)` of a NUMBER: the exact decimal value (rounding is not modelled). -/
def decimalVal (ip fp : List Char) : ℚ := digitsVal ip + digitsVal fp / 10 ^ fp.length

/-- `_convert_identifier`: parse_expression.py 109-114. -/
def convertIdentifier (ids : Identifiers) (n : String) : R Expr :=
  if n ∈ ids.variables_ then .ok (.var n)
  else if n ∈ ids.parameters then .ok (.par n)
  else .error .parseException

/-- An operator method of expression nodes, on what was visited: it fails on `None`. -/
def pval1 (f : Expr → Expr) : PVal → R PVal
  | .node e => .ok (.node (f e))
  | .holed => .ok .holed
  | .none => .error .parseException

/-- A binary operator of expression nodes: it fails when an operand is `None`. -/
def pval2 (f : Expr → Expr → Expr) : PVal → PVal → R PVal
  | .none, _ => .error .parseException
  | _, .none => .error .parseException
  | .node a, .node b => .ok (.node (f a b))
  | _, _ => .ok .holed

/-- `ComparisonNode(exp1, exp2, comp)`: the operands are not checked. -/
def pvalCmp (c : Cmp) : PVal → PVal → PVal
  | .node a, .node b => .node (.cmp a b c)
  | _, _ => .holed

def mulOpFn : MulOp → Expr → Expr → Expr
  | .mul => Expr.mulOp
  | .div => Expr.divOp

def addOpFn : AddOp → Expr → Expr → Expr
  | .add => Expr.addOp
  | .sub => Expr.subOp

/-- the sign of a signed atom or expression: parse_expression.py 199-212 -/
def signVal : AddOp → PVal → R PVal
  | .sub, v => pval1 Expr.negOp v
  | .add, v => .ok v

/-- `expressions_equal(time_shift, literal(0))`: parse_expression.py 146; equality.py 98-99. -/
def isLitZero : Expr → Bool
  | .lit v => v.eqb 0
  | _ => false

/-- `ExpressionNodeBuilderVisitor`: parse_expression.py 47-233. -/
def visitPT (ids : Identifiers) : PT → R PVal
  | .num ip fp => .ok (.node (.lit (.fin (decimalVal ip fp))))                            -- 68-69
  | .ident n => do let e ← convertIdentifier ids n; .ok (.node e)                         -- 72-73
  | .portField p f => .ok (.node (.portField p f))                                        -- 56-62, 117-118
  | .neg e => do let v ← visitPT ids e; pval1 Expr.negOp v                                -- 98-99
  | .paren e => visitPT ids e                                                             -- 102-103
  | .muldiv op l r => do                                                                  -- 76-84
    let a ← visitPT ids l
    let b ← visitPT ids r
    pval2 (mulOpFn op) a b
  | .addsub op l r => do                                                                  -- 87-95
    let a ← visitPT ids l
    let b ← visitPT ids r
    pval2 (addOpFn op) a b
  | .cmp c l r => do                                                                      -- 121-130
    let a ← visitPT ids l
    let b ← visitPT ids r
    .ok (pvalCmp c a b)
  | .allSum e => do let v ← visitPT ids e; pval1 Expr.allsum v                            -- 156-158
  | .portSum p f => .ok (.node (.agg (.portField p f) .portSum))                          -- 133-134
  | .timeSum a b e => do                                                                  -- 150-154
    let v ← visitPT ids e
    let x ← visitPT ids a
    let y ← visitPT ids b
    match v, x, y with
    | .none, _, _ => .error .parseException
    | .node e, .none, .none => .ok (.node (.allsum e))
    | .holed, .none, .none => .ok .holed
    | _, .none, _ => .error .parseException
    | _, _, .none => .error .parseException
    | .node e, .node x, .node y => .ok (.node (.tsum e x y))
    | _, _, _ => .ok .holed
  | .func n e => do                                                                       -- 161-167
    let v ← visitPT ids e
    if n = "expec" then pval1 (fun e => .scen e .expectation) v else .error .parseException
  | .timeShift n s => do                                                                  -- 142-148
    let e ← convertIdentifier ids n
    let v ← visitPT ids s
    match v with
    | .node k => .ok (.node (if isLitZero k then e else .shift e k))
    | .holed => .ok .holed
    | .none => .error .parseException
  | .timeIndex n i => do                                                                  -- 137-140
    let e ← convertIdentifier ids n
    let v ← visitPT ids i
    pval1 (.evalT e) v
  | .timeShiftExpr e s => do                                                              -- not overridden: visitChildren
    let _ ← visitPT ids e
    let _ ← visitPT ids s
    .ok .none
  | .timeIndexExpr e i => do                                                              -- not overridden: visitChildren
    let _ ← visitPT ids e
    let _ ← visitPT ids i
    .ok .none
  | .shift0 => .ok (.node (.lit 0))                                                       -- 170-172
  | .shift s => visitPT ids s                                                             -- 173-174
  | .shiftMuldiv op l r => do                                                             -- 188-196
    let a ← visitPT ids l
    let b ← visitPT ids r
    pval2 (mulOpFn op) a b
  | .shiftAddsub op l r => do                                                             -- 177-185
    let a ← visitPT ids l
    let b ← visitPT ids r
    pval2 (addOpFn op) a b
  | .signedAtom op a => do let v ← visitPT ids a; signVal op v                            -- 208-212
  | .signedExpr op e => do let v ← visitPT ids e; signVal op v                            -- 199-205
  | .rightMuldiv op l r => do                                                             -- 221-229
    let a ← visitPT ids l
    let b ← visitPT ids r
    pval2 (mulOpFn op) a b
  | .rightExpr e => visitPT ids e                                                         -- 215-218

/-- `parse_expression(expression, identifiers)`: parse_expression.py 245-263. -/
def parseExpression (text : String) (ids : Identifiers) : R PVal :=
  match parseTokens (lex text) with
  | none => .error .parseException
  | some t => visitPT ids t

end Verif
