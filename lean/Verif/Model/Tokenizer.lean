import Verif.Model.Utils
/-!
# /repo/necroassembler/tokenizer.py

The character state machine.  `context` (the file name used in messages) and
`case_sensitive` (stored but never read by the tokenizer) are not modelled.
-/

namespace Necro

/-- The three `Statement` subclasses (statements.py:18,105,122). -/
inductive Kind where
  | instr | directive | label
deriving DecidableEq, Repr

/-- statements.py:6-10 `Statement` -/
structure Stmt where
  kind : Kind
  tokens : List Str
  line : Nat
deriving DecidableEq, Repr

/-- The values of `Tokenizer.state` (tokenizer.py:17,35,41,46,51,54,62,79,81,96,104,110,132). -/
inductive TState where
  | token | string | escString | char | escChar | comment
deriving DecidableEq, Repr

/-- tokenizer.py:16-23 the fields of `Tokenizer`. -/
structure Tk where
  state : TState := .token
  cur : Str := []
  stmts : List Stmt := []
  toks : List Str := []
  line : Nat := 1
deriving DecidableEq, Repr

/-- `if self.current_token: self.tokens.append(self.current_token)`, then
`self.current_token = ''` (tokenizer.py:66-68, 84-87, 101-103, 107-109). -/
def Tk.flush (t : Tk) : Tk :=
  if t.cur ≠ [] then { t with toks := t.toks ++ [t.cur], cur := [] } else { t with cur := [] }

/-- tokenizer.py:70-76: build the statement from the pending tokens, if any. -/
def Tk.emit (t : Tk) : Tk :=
  match t.toks with
  | [] => t
  | tok :: _ =>
    if startsWith tok ['.'] then
      { t with stmts := t.stmts ++ [⟨.directive, t.toks, t.line⟩] }
    else
      { t with stmts := t.stmts ++ [⟨.instr, t.toks, t.line⟩] }

/-- tokenizer.py:65-81 `_token_spaces` -/
def Tk.spaces (t : Tk) (c : Char) : Tk :=
  let t := t.flush
  if c = '\n' ∨ c = '\r' ∨ c = ';' then
    let t := t.emit
    let t := { t with toks := [] }
    if c = ';' then { t with state := .comment } else { t with state := .token }
  else t

/-- tokenizer.py:83-87 `_token_brackets` -/
def Tk.brackets (t : Tk) (c : Char) : Tk :=
  let t := t.flush
  { t with toks := t.toks ++ [[c]] }

/-- tokenizer.py:89-98 `_token_colon` -/
def Tk.colon (t : Tk) : Except Err Tk :=
  if t.toks ≠ [] then .error (.tokenizerInvalidLabel t.line)
  else
    let t := t.flush
    .ok { t with
      stmts := t.stmts ++ [⟨.label, t.toks, t.line⟩]
      state := .token, cur := [], toks := [] }

/-- The characters handled by `_token_spaces` (tokenizer.py:113). -/
def isSpaceTok (c : Char) : Bool :=
  c = ' ' || c = '\n' || c = '\r' || c = '\t' || c = ',' || c = ';'

/-- The characters handled by `_token_brackets` (tokenizer.py:116). -/
def isBracket (c : Char) : Bool :=
  c = '(' || c = ')' || c = '[' || c = ']' || c = '{' || c = '}'

/-- tokenizer.py:112-128 `_state_token` -/
def Tk.stepToken (t : Tk) (c : Char) : Except Err Tk :=
  if isSpaceTok c then .ok (t.spaces c)
  else if isBracket c then .ok (t.brackets c)
  else if c = ':' then t.colon
  else if c = '"' then .ok { t.flush with state := .string }
  else if c = '\'' then .ok { t.flush with state := .char }
  else .ok { t with cur := t.cur ++ [c] }

/-- tokenizer.py:33-43, 53-63: inside a literal closed by `q`; `esc` is the state
entered by a backslash. -/
def Tk.stepQuoted (t : Tk) (q : Char) (esc : TState) (c : Char) : Tk :=
  if c = '\\' then { t with state := esc }
  else if c = q then
    let t := if t.cur ≠ [] then { t with toks := t.toks ++ [q :: t.cur ++ [q]] } else t
    { t with cur := [], state := .token }
  else { t with cur := t.cur ++ [c] }

/-- tokenizer.py:25-31 `step` -/
def Tk.step (t : Tk) (c : Char) : Except Err Tk :=
  match t.state with
  | .token => t.stepToken c
  | .string => .ok (t.stepQuoted '"' .escString c)
  | .escString => .ok { t with cur := t.cur ++ [c], state := .string }
  | .char => .ok (t.stepQuoted '\'' .escChar c)
  | .escChar => .ok { t with cur := t.cur ++ [c], state := .char }
  | .comment => if c = '\n' ∨ c = '\r' then .ok { t with state := .token } else .ok t

/-- tokenizer.py:141-144: one iteration of the loop of `parse`. -/
def Tk.next (t : Tk) (c : Char) : Except Err Tk :=
  match t.step c with
  | .error e => .error e
  | .ok t => if c = '\n' then .ok { t with line := t.line + 1 } else .ok t

/-- tokenizer.py:141-144: the loop of `parse`. -/
def Tk.run : Tk → Str → Except Err Tk
  | t, [] => .ok t
  | t, c :: cs =>
    match t.next c with
    | .error e => .error e
    | .ok t => t.run cs

/-- tokenizer.py:134-144: `Tokenizer().parse(code)` followed by reading
`statements`; a newline is added at the end of the text. -/
def tokenize (code : Str) : Except Err (List Stmt) :=
  match ({} : Tk).run (code ++ ['\n']) with
  | .ok t => .ok t.stmts
  | .error e => .error e

end Necro
