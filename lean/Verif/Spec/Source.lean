import Verif.Model.Tokenizer
/-!
# Source text, seen from outside the tokenizer

Which part of a text is code, comment or literal; what a token looks like; how a list
of statements is written down.  Only the data types `Stmt` and `Kind` of the model are
used.
-/

namespace Necro.Spec

/-! ## code, comments and literals -/

/-- Where the end of a text lies: in code, in a comment, inside a string or character
literal, or just after a backslash in one. -/
inductive Mode where
  | code | comment | str | strEsc | chr | chrEsc
deriving DecidableEq, Repr

def Mode.next : Mode → Char → Mode
  | .code, c => if c = '"' then .str else if c = '\'' then .chr else if c = ';' then .comment else .code
  | .comment, c => if c = '\n' ∨ c = '\r' then .code else .comment
  | .str, c => if c = '\\' then .strEsc else if c = '"' then .code else .str
  | .strEsc, _ => .str
  | .chr, c => if c = '\\' then .chrEsc else if c = '\'' then .code else .chr
  | .chrEsc, _ => .chr

/-- The mode at the end of a text. -/
def modeAt (text : Str) : Mode := text.foldl Mode.next .code

/-- The text ends outside literals. -/
def Closed (text : Str) : Prop := modeAt text = .code ∨ modeAt text = .comment

instance (text : Str) : Decidable (Closed text) := by unfold Closed; infer_instance

/-- Blank separators inside a line. -/
def isSep (c : Char) : Bool := c == ' ' || c == '\t' || c == ','

/-- Number of line feeds. -/
def newlines (s : Str) : Nat := s.count '\n'

/-! ## tokens -/

/-- A character that can appear in an unquoted token. -/
def plainChar (c : Char) : Bool := !(" \n\r\t,;()[]{}:\"'".toList.contains c)

/-- The shapes of tokens. -/
inductive TokenShape : Str → Prop
  | plain (s : Str) : s ≠ [] → (∀ c ∈ s, plainChar c = true) → TokenShape s
  | bracket (c : Char) : c ∈ "()[]{}".toList → TokenShape [c]
  | str (body : Str) : body ≠ [] → TokenShape ('"' :: body ++ ['"'])
  | chr (body : Str) : body ≠ [] → TokenShape ('\'' :: body ++ ['\''])

/-! ## writing statements down -/

/-- A token as an author thinks of it. -/
inductive Tok where
  | plain (s : Str)
  | bracket (c : Char)
  | str (body : Str)
  | chr (body : Str)
deriving DecidableEq, Repr

/-- Tokens that can be written. -/
def Tok.WF : Tok → Prop
  | .plain s => s ≠ [] ∧ ∀ c ∈ s, plainChar c = true
  | .bracket c => c ∈ "()[]{}".toList
  | .str b => b ≠ []
  | .chr b => b ≠ []

/-- The token an assembler should see. -/
def Tok.text : Tok → Str
  | .plain s => s
  | .bracket c => [c]
  | .str b => '"' :: b ++ ['"']
  | .chr b => '\'' :: b ++ ['\'']

/-- Escape a literal delimited by `q`. -/
def escape (q : Char) : Str → Str
  | [] => []
  | c :: cs => if c = q ∨ c = '\\' then '\\' :: c :: escape q cs else c :: escape q cs

/-- The token as written in a source file. -/
def Tok.render : Tok → Str
  | .plain s => s
  | .bracket c => [c]
  | .str b => '"' :: escape '"' b ++ ['"']
  | .chr b => '\'' :: escape '\'' b ++ ['\'']

/-- A line of source: a label, or an instruction/directive. -/
inductive Line where
  | label (name : Str)
  | stmt (head : Tok) (args : List Tok)
deriving DecidableEq, Repr

def Line.WF : Line → Prop
  | .label n => n ≠ [] ∧ ∀ c ∈ n, plainChar c = true
  | .stmt h as => h.WF ∧ ∀ a ∈ as, a.WF

/-- Tokens separated by single spaces. -/
def Line.render : Line → Str
  | .label n => n ++ [':']
  | .stmt h as => h.render ++ as.flatMap fun a => ' ' :: a.render

/-- One line per statement. -/
def renderProg : List Line → Str
  | [] => []
  | l :: ls => l.render ++ '\n' :: renderProg ls

/-- The statement a line stands for, if its last character is on line `n`. -/
def Line.toStmt (n : Nat) : Line → Stmt
  | .label name => ⟨.label, [name], n⟩
  | .stmt h as =>
    ⟨if h.text.head? = some '.' then .directive else .instr, h.text :: as.map Tok.text, n⟩

/-- The statements of a program whose first character is on line `n`. -/
def progStmts (n : Nat) : List Line → List Stmt
  | [] => []
  | l :: ls =>
    let n' := n + newlines l.render
    l.toStmt n' :: progStmts (n' + 1) ls

/-- What identifies a statement apart from its position. -/
def content (s : Stmt) : Kind × List Str := (s.kind, s.tokens)

/-- Does the text contain an unescaped closing `q`? -/
def closes (q : Char) : Str → Bool
  | [] => false
  | ['\\'] => false
  | '\\' :: _ :: r => closes q r
  | c :: r => c == q || closes q r

end Necro.Spec
