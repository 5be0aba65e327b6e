import Verif.Model.Utils
/-!
# Number and expression parsing of /repo/necroassembler/assembler.py

`parse_integer`, `apply_math_formula` and `get_label_absolute_address_by_name` are
mutually recursive in Python.  Here the recursion is cut by a depth counter; running
out is `recursionError`.  `Verif.Props.Numbers` proves that depth 2 is never
exceeded, so the counter does not change the behaviour.
-/

namespace Necro

/-- The number syntax of an assembler class (assembler.py:56-63). -/
structure NumSyntax where
  hexPrefixes : List Str := []
  hexSuffixes : List Str := []
  binPrefixes : List Str := []
  binSuffixes : List Str := []
  octPrefixes : List Str := []
  octSuffixes : List Str := []
  decPrefixes : List Str := []
  decSuffixes : List Str := []
deriving DecidableEq, Repr

/-- The dictionary stored for a label (statements.py:116-119). -/
structure LabelInfo where
  base : Int
  org : Int
  sect : Option Str
deriving DecidableEq, Repr

abbrev Labels := List (Str × LabelInfo)

/-- assembler.py:459-460 `get_label_absolute_address` -/
def LabelInfo.address (l : LabelInfo) : Int := l.org + l.base

/-- The operator characters of a formula (assembler.py:425, 845). -/
def isOp (c : Char) : Bool :=
  c = '+' || c = '-' || c = '*' || c = '/' || c = '&' || c = '|'

/-- The prefix operators (assembler.py:836). -/
def isPre (c : Char) : Bool := c = '<' || c = '>'

/-- assembler.py:843-853: scan the token after the prefix operators for the start of
the formula.  `valid` is `valid_chars`; the result is `post_formula`. -/
def scanPost (valid : Nat) : Str → Str
  | [] => []
  | c :: cs =>
    if isOp c then (if valid < 1 then [] else c :: cs)
    else scanPost (valid + 1) cs

/-- The result of `_get_math_formula`. -/
structure Formula where
  body : Str
  pre : Str
  post : Str
deriving DecidableEq, Repr

/-- assembler.py:832-858 `_get_math_formula` -/
def getMathFormula (token : Str) : Formula :=
  let pre := token.takeWhile isPre
  let rest := token.drop pre.length
  let post := scanPost 0 rest
  if post.length > 0 then ⟨(token.drop pre.length).take (token.length - post.length - pre.length), pre, post⟩
  else ⟨rest, pre, post⟩

/-- assembler.py:315-329: the first prefix that matches decides; a bad body is an
uncaught `ValueError`. -/
def tryPrefixes (base : Nat) (dec : Bool) (token : Str) : List Str → Option (Except Err (Int × Bool))
  | [] => none
  | p :: ps =>
    if startsWith token p then
      match pyInt base (token.drop p.length) with
      | some v => some (.ok (v, dec))
      | none => some (.error .valueError)
    else tryPrefixes base dec token ps

/-- `token[:-len(suffix)]`; an empty suffix would give `token[:-0]`, the empty string. -/
def dropSuffix (token suffix : Str) : Str :=
  if suffix = [] then [] else token.take (token.length - suffix.length)

/-- assembler.py:331-349: the first suffix that matches and leaves only digits decides. -/
def trySuffixes (base : Nat) (dec : Bool) (token : Str) : List Str → Option (Except Err (Int × Bool))
  | [] => none
  | s :: ss =>
    if endsWith token s && isDigitStr (dropSuffix token s) then
      match pyInt base (dropSuffix token s) with
      | some v => some (.ok (v, dec))
      | none => some (.error .valueError)
    else trySuffixes base dec token ss

/-- Left-biased choice, used to chain the loops of `_internal_parse_integer`. -/
def orTry (a : Option α) (b : Option α) : Option α :=
  match a with
  | some x => some x
  | none => b

/-- assembler.py:310-354 `_internal_parse_integer`: `ok (some (value, decimal))`, or
`ok none` for `(None, False)`. -/
def internalParseInteger (sy : NumSyntax) (token : Str) : Except Err (Option (Int × Bool)) :=
  match token with
  | [] => .error .indexError                    -- token[0] on the empty string
  | '\'' :: r =>
    match r with
    | c :: '\'' :: _ => .ok (some (c.toNat, false))
    | _ :: _ :: _ => rest token
    | _ => .error .indexError                   -- token[2] on a token shorter than 3
  | _ => rest token
where
  rest (token : Str) : Except Err (Option (Int × Bool)) :=
    match orTry (tryPrefixes 16 false token sy.hexPrefixes) <|
          orTry (tryPrefixes 2 false token sy.binPrefixes) <|
          orTry (tryPrefixes 8 false token sy.octPrefixes) <|
          orTry (tryPrefixes 10 true token sy.decPrefixes) <|
          orTry (trySuffixes 16 false token sy.hexSuffixes) <|
          orTry (trySuffixes 2 false token sy.binSuffixes) <|
          orTry (trySuffixes 8 false token sy.octSuffixes) <|
          trySuffixes 10 true token sy.decSuffixes with
    | some (.ok r) => .ok (some r)
    | some (.error e) => .error e
    | none =>
      match pyInt 10 token with
      | some v => .ok (some (v, true))
      | none => .ok none

/-- The variables of the prefix loop (assembler.py:405-407). -/
structure PreState where
  value : Int
  low : Nat := 0
  shifted : Int := 0
  has : Bool := false

/-- assembler.py:409-416: one iteration of the prefix loop. -/
def preStep (p : PreState) (op : Char) : PreState :=
  if op = '>' then { p with value := pyShr p.value 8 }
  else if op = '<' then
    { p with
      shifted := pyOr p.shifted (pyShl (pyAnd (pyShr p.value (8 * p.low)) 0xFF) (8 * p.low))
      low := p.low + 1
      has := true }
  else p

/-- assembler.py:405-419: the whole prefix part. -/
def applyPre (pre : Str) (value : Int) : Int :=
  let p := pre.foldl preStep { value := value }
  if p.has then p.shifted else p.value

/-- assembler.py:421-434: split `post_formula` into (operator, operand) pairs. -/
def splitOps : Option Char → Str → Str → List (Char × Str)
  | none, _, [] => []
  | some cmd, arg, [] => [(cmd, arg)]
  | cmd, arg, c :: cs =>
    if isOp c then
      match cmd with
      | some k => (k, arg) :: splitOps (some c) [] cs
      | none => splitOps (some c) [] cs
    else splitOps cmd (arg ++ [c]) cs

/-- assembler.py:444-455: apply one operator.  `//` by zero is `ZeroDivisionError`. -/
def applyOp (cmd : Char) (value arg : Int) : Except Err Int :=
  if cmd = '+' then .ok (value + arg)
  else if cmd = '-' then .ok (value - arg)
  else if cmd = '*' then .ok (value * arg)
  else if cmd = '/' then (if arg = 0 then .error .zeroDivisionError else .ok (Int.fdiv value arg))
  else if cmd = '&' then .ok (pyAnd value arg)
  else if cmd = '|' then .ok (pyOr value arg)
  else .ok value

/-- assembler.py:436-457: the operator loop; `evalArg` evaluates an operand. -/
def applyOps (evalArg : Str → Except Err Int) (value : Int) : List (Char × Str) → Except Err Int
  | [] => .ok value
  | (cmd, arg) :: ops =>
    match evalArg arg with
    | .error e => .error e
    | .ok a =>
      match applyOp cmd value a with
      | .error e => .error e
      | .ok v => applyOps evalArg v ops

/-- assembler.py:363-381: the range checks at the end of `parse_integer`. -/
def checkRange (value : Int) (decimal : Bool) (bits : Nat) (signed : Bool) : Except Err Int :=
  if !decimal && decide (value < 0) then .error .negativeSignNotAllowed
  else if decimal then
    if !signed then
      if value < 0 then
        let maxValue : Int := (2 ^ bits : Nat)
        let value := value + maxValue
        if value < maxValue / 2 then .error .notInBitRange
        else if !inBitRange value bits then .error .notInBitRange
        else .ok value
      else if !inBitRange value bits then .error .notInBitRange
      else .ok value
    else if !inBitRangeDecimal value bits true then .error .notInBitRange
    else .ok value
  else if !inBitRange value bits then .error .notInBitRange
  else .ok value

/-- assembler.py:404-457 `apply_math_formula`; `ev` evaluates one operand. -/
def applyMathW (ev : Str → Except Err Int) (pre post : Str) (value : Int) : Except Err Int :=
  applyOps ev (applyPre pre value) (splitOps none [] post)

/-- assembler.py:356-381 `parse_integer`; `ok none` is `None` (not a number). -/
def parseIntegerW (ev : Str → Except Err Int) (sy : NumSyntax) (token : Str) (bits : Nat)
    (signed : Bool) : Except Err (Option Int) :=
  let f := getMathFormula token
  match internalParseInteger sy f.body with
  | .error e => .error e
  | .ok none => .ok none
  | .ok (some (value, decimal)) =>
    match applyMathW ev f.pre f.post value with
    | .error e => .error e
    | .ok value =>
      match checkRange value decimal bits signed with
      | .error e => .error e
      | .ok v => .ok (some v)

/-- assembler.py:462-466 `get_label_absolute_address_by_name` (`start = 0`) and
assembler.py:471-475 `get_label_relative_address_by_name`; `ok none` is `None`. -/
def labelAddressW (ev : Str → Except Err Int) (ls : Labels) (name : Str) (start : Int) :
    Except Err (Option Int) :=
  let f := getMathFormula name
  match dget ls f.body with
  | none => .ok none
  | some l =>
    match applyMathW ev f.pre f.post (l.address - start) with
    | .error e => .error e
    | .ok v => .ok (some v)

/-- assembler.py:437-443: the value of an operand of a formula, with at most `depth`
nested operand evaluations. -/
def evalArg (sy : NumSyntax) (ls : Labels) : Nat → Str → Except Err Int
  | 0, _ => .error .recursionError
  | depth + 1, arg =>
    if arg = [] then .ok 1
    else
      match parseIntegerW (evalArg sy ls depth) sy arg 64 false with
      | .error e => .error e
      | .ok (some v) => .ok v
      | .ok none =>
        match labelAddressW (evalArg sy ls depth) ls arg 0 with
        | .error e => .error e
        | .ok (some v) => .ok v
        | .ok none => .error (.unknownLabel arg)

/-- The depth used by the model; `Verif.Props.Numbers` shows any larger value gives the
same results and that it is never exhausted. -/
def exprDepth : Nat := 1

/-- assembler.py:356-381 `parse_integer` -/
def parseInteger (sy : NumSyntax) (ls : Labels) (token : Str) (bits : Nat) (signed : Bool) :
    Except Err (Option Int) :=
  parseIntegerW (evalArg sy ls exprDepth) sy token bits signed

/-- assembler.py:404-457 `apply_math_formula` -/
def applyMathFormula (sy : NumSyntax) (ls : Labels) (pre post : Str) (value : Int) :
    Except Err Int :=
  applyMathW (evalArg sy ls exprDepth) pre post value

/-- assembler.py:462-466 `get_label_absolute_address_by_name` -/
def labelAddress (sy : NumSyntax) (ls : Labels) (name : Str) : Except Err (Option Int) :=
  labelAddressW (evalArg sy ls exprDepth) ls name 0

/-- assembler.py:471-475 `get_label_relative_address_by_name` -/
def labelRelative (sy : NumSyntax) (ls : Labels) (name : Str) (start : Int) :
    Except Err (Option Int) :=
  labelAddressW (evalArg sy ls exprDepth) ls name start

end Necro
