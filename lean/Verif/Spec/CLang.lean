import Verif.Model.Basic

/-!
# The part of C that the exported programs use

A lexer, a preprocessor, a parser and the meaning of a function of one `uint8_t*` argument, following the C standard
for this subset: text that is not in the subset has no meaning (`none`), and neither has undefined behaviour such as
an index outside an array. Conversion of a value that does not fit to `int16_t` wraps, as all C compilers for
two's complement machines define it.
-/

namespace GT.Spec.CLang
open GT

/-- The characters of a string literal. -/
scoped macro:max "c!" s:str : term => do
  let cs : Array (Lean.TSyntax `term) := (s.getString.toList.map fun c => (Lean.Syntax.mkCharLit c : Lean.TSyntax `term)).toArray
  `([$cs,*])

/-! ### Lexer -/

inductive CTy
  | int
  | int16
  | uint8
deriving DecidableEq, Repr

inductive CTok
  | id (s : List Char)
  | num (n : Nat)
  | ty (t : CTy)
  | kIf | kFor | kReturn | kStatic | kSizeof
  | lpar | rpar | lbrk | rbrk | lbrc | rbrc | semi | comma | star | dot
  | gt | lt | eqeq | assign | plusEq | plusPlus | andand | minus
  | hash | eod
  | bad
deriving DecidableEq, Repr

/-- Keywords and type names (`int16_t` and `uint8_t` come from inttypes.h); all else is an identifier. -/
def wordTok (s : List Char) : CTok :=
  if s = c!"if" then .kIf
  else if s = c!"for" then .kFor
  else if s = c!"return" then .kReturn
  else if s = c!"static" then .kStatic
  else if s = c!"sizeof" then .kSizeof
  else if s = c!"int" then .ty .int
  else if s = c!"int16_t" then .ty .int16
  else if s = c!"uint8_t" then .ty .uint8
  else .id s

/-- What the lexer is in the middle of: nothing, a word, a number (a leading zero is kept apart, as `01` would be
octal), a symbol that may continue, a comment. -/
inductive LexSt
  | idle
  | word (s : List Char)
  | zero
  | num (n : Nat)
  | sym (c : Char)
  | comment
deriving DecidableEq, Repr

def isWordChar (c : Char) : Bool := c.isAlpha || c = '_'

/-- A single symbol. -/
def symTok : Char → CTok
  | '(' => .lpar
  | ')' => .rpar
  | '[' => .lbrk
  | ']' => .rbrk
  | '{' => .lbrc
  | '}' => .rbrc
  | ';' => .semi
  | ',' => .comma
  | '*' => .star
  | '.' => .dot
  | '>' => .gt
  | '<' => .lt
  | '=' => .assign
  | '-' => .minus
  | _ => .bad

/-- Two characters that form one symbol. -/
def symTok2 : Char → Char → Option CTok
  | '+', '=' => some .plusEq
  | '+', '+' => some .plusPlus
  | '=', '=' => some .eqeq
  | '&', '&' => some .andand
  | '>', '=' => some .bad
  | '<', '=' => some .bad
  | '-', '=' => some .bad
  | '-', '-' => some .bad
  | '-', '>' => some .bad
  | '>', '>' => some .bad
  | '<', '<' => some .bad
  | '/', '*' => some .bad
  | _, _ => none

/-- A character that begins something new; `dir`: within a preprocessor line. -/
def lexStart (dir : Bool) (c : Char) : List CTok × LexSt × Bool :=
  if c = '\n' then (if dir then [.eod] else [], .idle, false)
  else if c = ' ' ∨ c = '\t' then ([], .idle, dir)
  else if isWordChar c then ([], .word [c], dir)
  else if c = '0' then ([], .zero, dir)
  else if c.isDigit then ([], .num (c.toNat - 48), dir)
  else if c = '#' then ([.hash], .idle, true)
  else if c = '+' ∨ c = '=' ∨ c = '&' ∨ c = '>' ∨ c = '<' ∨ c = '-' ∨ c = '/' then ([], .sym c, dir)
  else ([symTok c], .idle, dir)

/-- End of a token, then a character that begins something new. -/
def lexNext (t : CTok) (dir : Bool) (c : Char) : List CTok × LexSt × Bool :=
  let r := lexStart dir c
  (t :: r.1, r.2)

/-- One character. -/
def lexStep (s : LexSt × Bool) (c : Char) : List CTok × LexSt × Bool :=
  match s.1 with
  | .idle => lexStart s.2 c
  | .word w => if isWordChar c || c.isDigit then ([], .word (w ++ [c]), s.2) else lexNext (wordTok w) s.2 c
  | .zero => if isWordChar c || c.isDigit then ([.bad], .idle, s.2) else lexNext (.num 0) s.2 c
  | .num n =>
    if c.isDigit then ([], .num (10 * n + (c.toNat - 48)), s.2)
    else if isWordChar c then ([.bad], .idle, s.2)
    else lexNext (.num n) s.2 c
  | .sym d =>
    if d = '/' ∧ c = '/' then ([], .comment, s.2)
    else match symTok2 d c with
      | some t => ([t], .idle, s.2)
      | none => lexNext (symTok d) s.2 c
  | .comment => if c = '\n' then lexStart s.2 c else ([], .comment, s.2)

/-- A text, from a state. -/
def lexRun : LexSt × Bool → List Char → List CTok × LexSt × Bool
  | s, [] => ([], s)
  | s, c :: cs =>
    let r := lexStep s c
    let q := lexRun r.2 cs
    (r.1 ++ q.1, q.2)

/-- A whole text: it has to end with a newline, as the standard demands of source files. -/
def lex (t : List Char) : Option (List CTok) :=
  match lexRun (.idle, false) t with
  | (ts, .idle, false) => if ts.contains .bad then none else some ts
  | _ => none

/-! ### Preprocessor -/

/-- The value of an object-like macro, if it is defined. -/
def macroVal (ms : List (List Char × Option Nat)) (s : List Char) : Option (Option Nat) :=
  match ms with
  | [] => none
  | m :: ms => if m.1 = s then some m.2 else macroVal ms s

/-- What the preprocessor knows: the macros defined so far (`none`: defined as nothing), for every open `#ifndef`
whether its lines are left out, and the tokens of the directive being read. -/
structure PPSt where
  ms   : List (List Char × Option Nat)
  off  : List Bool
  line : Option (List CTok)
deriving DecidableEq, Repr

/-- Within lines that are left out. -/
def PPSt.out (s : PPSt) : Bool := s.off.contains true

/-- A complete directive: `#define` of a number or of nothing, `#ifndef`, `#endif`, `#include <...>` (of the headers
of the standard library, which leave nothing here). Anything else is an error. -/
def directive (s : PPSt) : List CTok → Option PPSt
  | [.id d, .id m, .num n] =>
    if d = c!"define" then some { s with ms := if s.out then s.ms else (m, some n) :: s.ms, line := none } else none
  | [.id d, .id m] =>
    if d = c!"define" then some { s with ms := if s.out then s.ms else (m, none) :: s.ms, line := none }
    else if d = c!"ifndef" then some { s with off := (macroVal s.ms m).isSome :: s.off, line := none }
    else none
  | [.id d] =>
    if d = c!"endif" then match s.off with
      | [] => none
      | _ :: off => some { s with off := off, line := none }
    else none
  | .id d :: .lt :: _ => if d = c!"include" then some { s with line := none } else none
  | _ => none

/-- One token: what is left of it, and the state afterwards. Macros are replaced by their numbers. -/
def ppStep (s : PPSt) (t : CTok) : List CTok × PPSt :=
  match s.line with
  | some l =>
    if t = .eod then match directive s l with
      | some s' => ([], s')
      | none => ([.bad], { s with line := none })
    else ([], { s with line := some (l ++ [t]) })
  | none => match t with
    | .hash => ([], { s with line := some [] })
    | .eod => ([], s)
    | .id i =>
      if s.out then ([], s)
      else match macroVal s.ms i with
        | some (some n) => ([.num n], s)
        | some none => ([], s)
        | none => ([.id i], s)
    | t => if s.out then ([], s) else ([t], s)

/-- Tokens, from a state. -/
def ppRun : PPSt → List CTok → List CTok × PPSt
  | s, [] => ([], s)
  | s, t :: ts =>
    let r := ppStep s t
    let q := ppRun r.2 ts
    (r.1 ++ q.1, q.2)

/-- A whole text: every `#ifndef` has to have its `#endif`. -/
def preprocess (ts : List CTok) : Option (List CTok) :=
  match ppRun ⟨[], [], none⟩ ts with
  | (out, ⟨_, [], none⟩) => some out
  | _ => none

/-! ### Parser -/

inductive CExpr
  | lit (v : Int)
  | var (s : List Char)
  | idx (a : List Char) (e : CExpr)
  | gt (a b : CExpr)
  | lt (a b : CExpr)
  | eq (a b : CExpr)
  | and (a b : CExpr)
deriving DecidableEq, Repr

inductive CStmt
  | staticArr (a : List Char) (size : Nat)
  | clear (a : List Char)
  | decl (t : CTy) (v : List Char) (e : CExpr)
  | set (v : List Char) (e : CExpr)
  | addTo (a : List Char) (i e : CExpr)
  | ite (c : CExpr) (body : List CStmt)
  | loop (v : List Char) (from_ to_ : CExpr) (body : List CStmt)
  | ret (e : CExpr)
deriving Repr

/-- A number, a negated number, a variable or an array element. -/
def parsePrim : List CTok → Option (CExpr × List CTok)
  | .num n :: ts => some (.lit n, ts)
  | .minus :: .num n :: ts => some (.lit (-(n : Int)), ts)
  | .id a :: .lbrk :: .num n :: .rbrk :: ts => some (.idx a (.lit n), ts)
  | .id a :: .lbrk :: .id v :: .rbrk :: ts => some (.idx a (.var v), ts)
  | .id v :: ts => some (.var v, ts)
  | _ => none

/-- A comparison. -/
def parseCmp (ts : List CTok) : Option (CExpr × List CTok) :=
  match parsePrim ts with
  | none => none
  | some (a, .gt :: ts) => match parsePrim ts with
    | some (b, ts) => some (.gt a b, ts)
    | none => none
  | some (a, .lt :: ts) => match parsePrim ts with
    | some (b, ts) => some (.lt a b, ts)
    | none => none
  | some (a, .eqeq :: ts) => match parsePrim ts with
    | some (b, ts) => some (.eq a b, ts)
    | none => none
  | some (a, ts) => some (a, ts)

/-- Comparisons joined by `&&`, which associates to the left. -/
def parseAnds : Nat → CExpr → List CTok → Option (CExpr × List CTok)
  | fuel + 1, a, .andand :: ts => match parseCmp ts with
    | some (b, ts) => parseAnds fuel (.and a b) ts
    | none => none
  | _, a, ts => some (a, ts)

def parseExpr (ts : List CTok) : Option (CExpr × List CTok) :=
  match parseCmp ts with
  | some (a, ts) => parseAnds ts.length a ts
  | none => none

/-- A statement without a block, up to and with its semicolon. -/
def parseSimple : List CTok → Option (CStmt × List CTok)
  | .kStatic :: .ty .int16 :: .id a :: .lbrk :: .num n :: .rbrk :: .assign :: .lbrc :: .num 0 :: .rbrc :: .semi :: ts =>
    some (.staticArr a n, ts)
  | .id f :: .lpar :: .id a :: .comma :: .num 0 :: .comma :: .kSizeof :: .lpar :: .id b :: .rpar :: .rpar :: .semi :: ts =>
    if f = c!"memset" ∧ a = b then some (.clear a, ts) else none
  | .ty t :: .id v :: .assign :: ts => match parseExpr ts with
    | some (e, .semi :: ts) => some (.decl t v e, ts)
    | _ => none
  | .id v :: .assign :: ts => match parseExpr ts with
    | some (e, .semi :: ts) => some (.set v e, ts)
    | _ => none
  | .id a :: .lbrk :: .num i :: .rbrk :: .plusEq :: ts => match parseExpr ts with
    | some (e, .semi :: ts) => some (.addTo a (.lit i) e, ts)
    | _ => none
  | .kReturn :: ts => match parseExpr ts with
    | some (e, .semi :: ts) => some (.ret e, ts)
    | _ => none
  | _ => none

/-- Statements up to the closing brace of their block, which is consumed. -/
def parseBlock : Nat → List CTok → Option (List CStmt × List CTok)
  | 0, _ => none
  | _ + 1, .rbrc :: ts => some ([], ts)
  | fuel + 1, .kIf :: .lpar :: ts => match parseExpr ts with
    | some (c, .rpar :: .lbrc :: ts) => match parseBlock fuel ts with
      | some (body, ts) => match parseBlock fuel ts with
        | some (rest, ts) => some (.ite c body :: rest, ts)
        | none => none
      | none => none
    | _ => none
  | fuel + 1, .kFor :: .lpar :: .ty .int :: .id v :: .assign :: ts => match parsePrim ts with
    | some (a, .semi :: .id v' :: .lt :: ts) => match parsePrim ts with
      | some (b, .semi :: .plusPlus :: .id v'' :: .rpar :: .lbrc :: ts) =>
        if v' = v ∧ v'' = v then match parseBlock fuel ts with
          | some (body, ts) => match parseBlock fuel ts with
            | some (rest, ts) => some (.loop v a b body :: rest, ts)
            | none => none
          | none => none
        else none
      | _ => none
    | _ => none
  | fuel + 1, ts => match parseSimple ts with
    | some (s, ts) => match parseBlock fuel ts with
      | some (rest, ts) => some (s :: rest, ts)
      | none => none
    | none => none

/-- A file with one function `int f(uint8_t* x)`: its name, its parameter and its body. -/
def parseFile : List CTok → Option (List Char × List Char × List CStmt)
  | .ty .int :: .id f :: .lpar :: .ty .uint8 :: .star :: .id x :: .rpar :: .lbrc :: ts =>
    match parseBlock (ts.length + 1) ts with
    | some (body, []) => some (f, x, body)
    | _ => none
  | _ => none

/-- A C source text as a function. -/
def compile (text : List Char) : Option (List Char × List Char × List CStmt) :=
  match lex text with
  | some ts => match preprocess ts with
    | some us => parseFile us
    | none => none
  | none => none

/-! ### Meaning -/

/-- The parameter and what it points to, the arrays (of `int16_t`) and the variables in scope. -/
structure Store where
  param : List Char
  x : List Nat
  arrs : List Char → Option (List Int)
  vars : List Char → Option (CTy × Int)

def upd {α : Type} (f : List Char → Option α) (k : List Char) (v : α) : List Char → Option α :=
  fun k' => if k' = k then some v else f k'

/-- Conversion to a type. -/
def conv (t : CTy) (v : Int) : Int :=
  match t with
  | .int => wrap32 v
  | .int16 => wrap16 v
  | .uint8 => v % 256

/-- Elements of an array; outside it the behaviour is undefined. -/
def elemAt (l : List Int) (i : Int) : Option Int := if i < 0 then none else l[i.toNat]?

def evalE (s : Store) : CExpr → Option Int
  | .lit v => some v
  | .var v => (s.vars v).map (·.2)
  | .idx a e => match if a = s.param then some (s.x.map Int.ofNat) else s.arrs a, evalE s e with
    | some l, some i => elemAt l i
    | _, _ => none
  | .gt a b => match evalE s a, evalE s b with
    | some u, some v => some (if u > v then 1 else 0)
    | _, _ => none
  | .lt a b => match evalE s a, evalE s b with
    | some u, some v => some (if u < v then 1 else 0)
    | _, _ => none
  | .eq a b => match evalE s a, evalE s b with
    | some u, some v => some (if u = v then 1 else 0)
    | _, _ => none
  | .and a b => match evalE s a with
    | some 0 => some 0
    | some _ => match evalE s b with
      | some v => some (if v = 0 then 0 else 1)
      | none => none
    | none => none

/-- One statement without a block: the store, and the value when it returns. -/
def execSimple (s : Store) : CStmt → Option (Store × Option Int)
  | .staticArr a n => match s.arrs a with
    | some _ => some (s, none)
    | none => some ({ s with arrs := upd s.arrs a (List.replicate n 0) }, none)
  | .clear a => match s.arrs a with
    | some l => some ({ s with arrs := upd s.arrs a (List.replicate l.length 0) }, none)
    | none => none
  | .decl t v e => match evalE s e with
    | some u => some ({ s with vars := upd s.vars v (t, conv t u) }, none)
    | none => none
  | .set v e => match s.vars v, evalE s e with
    | some (t, _), some u => some ({ s with vars := upd s.vars v (t, conv t u) }, none)
    | _, _ => none
  | .addTo a i e => match s.arrs a, evalE s i, evalE s e with
    | some l, some i, some u => match elemAt l i with
      | some w => some ({ s with arrs := upd s.arrs a (l.set i.toNat (conv .int16 (w + u))) }, none)
      | none => none
    | _, _, _ => none
  | .ret e => match evalE s e with
    | some u => some (s, some (conv .int u))
    | none => none
  | _ => none

/-- Statements in sequence, `fuel` bounding the depth of the derivation. -/
def exec : Nat → Store → List CStmt → Option (Store × Option Int)
  | 0, _, _ => none
  | _ + 1, s, [] => some (s, none)
  | fuel + 1, s, .ite c body :: rest => match evalE s c with
    | none => none
    | some 0 => exec fuel s rest
    | some _ => match exec fuel s body with
      | some (s, none) => exec fuel s rest
      | r => r
  | fuel + 1, s, .loop v a b body :: rest => match evalE s a with
    | none => none
    | some i =>
      let s := { s with vars := upd s.vars v (.int, conv .int i) }
      match evalE s (.lt (.var v) b) with
      | none => none
      | some 0 => exec fuel s rest
      | some _ => match exec fuel s body with
        | some (s, none) => match s.vars v with
          | some (_, j) => exec fuel s (.loop v (.lit (j + 1)) b body :: rest)
          | none => none
        | r => r
  | fuel + 1, s, c :: rest => match execSimple s c with
    | some (s, none) => exec fuel s rest
    | r => r

/-- A call of the function in a source text with argument `x`; `statics` are the static arrays as earlier calls left
them (`none`: not yet initialised). The value and the static arrays afterwards. -/
def call (fuel : Nat) (text : List Char) (statics : List Char → Option (List Int)) (x : List Nat) :
    Option (Int × (List Char → Option (List Int))) :=
  match compile text with
  | none => none
  | some (_, p, body) =>
    match exec fuel ⟨p, x, statics, fun _ => none⟩ body with
    | some (s, some v) => some (v, s.arrs)
    | _ => none

/-- Calls with the inputs `xs` one after another, from the start of the process: the values. -/
def session (fuel : Nat) (text : List Char) : (List Char → Option (List Int)) → List (List Nat) → Option (List Int)
  | _, [] => some []
  | st, x :: xs => match call fuel text st x with
    | none => none
    | some (v, st) => match session fuel text st xs with
      | none => none
      | some vs => some (v :: vs)

end GT.Spec.CLang
