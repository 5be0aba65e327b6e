import Verif.Model.Asm
import Verif.Spec.Source
/-!
# What a program with definitions stands for
-/

namespace Necro.Spec

/-- The text that stands for a word. -/
def meaning (table : List (Str × Str)) (word : Str) : Str := (table.lookup word).getD word

/-- The token with every longest run of letters, digits, underscores and points replaced by what it stands for;
`acc` is the run being read. -/
def replacedFrom (table : List (Str × Str)) (acc : Str) : Str → Str
  | [] => if acc = [] then [] else meaning table acc
  | c :: cs =>
    if isNameChar c then replacedFrom table (acc ++ [c]) cs
    else (if acc = [] then [] else meaning table acc) ++ c :: replacedFrom table [] cs

/-- A token with the definitions put in, once: a token that is itself defined, or the words of any other token. -/
def replaced (table : List (Str × Str)) (token : Str) : Str :=
  match table.lookup token with
  | some v => v
  | none => replacedFrom table [] token

/-- The directive has this name. -/
def isNamed (d : Dialect) (t : Str) (name : String) : Bool := d.key (t.drop 1) == d.key name.toList

/-- A source without its `.define` lines, with the definitions put into the lines that follow them, and the table at its end (the newest
definition first). Only for sources without `.macro` and `.include` lines and with two arguments to each `.define`. -/
def expand (d : Dialect) : List (Str × Str) → List Stmt → Option (List (Kind × List Str) × List (Str × Str))
  | a, [] => some ([], a)
  | a, st :: l =>
    let line (x : Kind × List Str) := (expand d a l).map fun r => (x :: r.1, r.2)
    match st.kind, st.tokens with
    | .label, ts => line (.label, ts)
    | .instr, ts => line (.instr, ts.map (replaced a))
    | .directive, [] => none
    | .directive, t :: r =>
      if isNamed d t "macro" || isNamed d t "include" then none
      else if isNamed d t "define" then
        match r with
        | [n, v] => expand d ((replaced a n, replaced a v) :: a) l
        | _ => none
      else line (.directive, t :: r.map (replaced a))

/-- The second sources are the first with the definitions put in: those of the tool (`own`) and those of the sources before.
The tokens that come out do not contain words the tool itself defines. -/
inductive Expanded (d : Dialect) (text : Str → Option Str) (own : List (Str × Str)) : List (Str × Str) → List Str → List Str → Prop
  | nil {a} : Expanded d text own a [] []
  | cons {a b f f' fs fs' c c' l l'} : text f = some c → text f' = some c' → tokenize c = .ok l → tokenize c' = .ok l' →
      expand d a l = some (l'.map content, b) → (∀ st ∈ l', ∀ t ∈ st.tokens, replaced own t = t) → Expanded d text own b fs fs' →
      Expanded d text own a (f :: fs) (f' :: fs')

end Necro.Spec
