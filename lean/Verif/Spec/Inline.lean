import Verif.Spec.Expand
/-!
# What a program with macros stands for
-/

namespace Necro.Spec

/-- The macros: the name, the parameters and the lines of each, the newest first. -/
abbrev MacroTable := List (Str × List Str × List (List Str))

/-- The results for the elements of a list, one after another, if there is one for each. -/
def gather {α β : Type} (f : α → Option (List β)) : List α → Option (List β)
  | [] => some []
  | x :: l => match f x, gather f l with
    | some a, some b => some (a ++ b)
    | _, _ => none

/-- The lines an instruction line stands for. The definitions are put in; a line that calls a macro stands for the lines of the macro,
with the arguments put in for the parameters, each of them written out in turn. `active` are the macros being written out, which
must not be called again, and the number bounds how deep calls are nested. -/
def writeOut (d : Dialect) (table : List (Str × Str)) (macros : MacroTable) : Nat → List Str → List Str → Option (List (List Str))
  | 0, _, _ => none
  | n + 1, active, line =>
    match line.map (replaced table) with
    | [] => none
    | t :: args =>
      match macros.lookup (d.key t) with
      | none => some [t :: args]
      | some (params, body) =>
        if d.key t ∈ active ∨ args.length < params.length then none
        else gather (fun b => writeOut d table macros n (d.key t :: active) (b.map (replaced (params.zip args).reverse))) body

/-- A source without its definitions and macros, and the tables at its end. `record` is the macro whose lines are being read. Only
instructions belong to a macro: a directive written in it takes effect once, where it is written. Only for sources without `.include`
lines, without labels in macros, and with two arguments to each `.define`. -/
def inlineAll (d : Dialect) (n : Nat) : Option (Str × List Str × List (List Str)) → List (Str × Str) → MacroTable → List Stmt →
    Option (List (Kind × List Str) × List (Str × Str) × MacroTable)
  | none, a, ms, [] => some ([], a, ms)
  | some _, _, _, [] => none
  | some (key, params, body), a, ms, st :: l =>
    match st.kind, st.tokens with
    | .instr, ts => inlineAll d n (some (key, params, body ++ [ts])) a ms l
    | .directive, t :: r =>
      if isNamed d t "include" || isNamed d t "macro" then none
      else if isNamed d t "endmacro" then inlineAll d n none a ((key, params, body) :: ms) l
      else if isNamed d t "define" then
        match r with
        | [w, v] => inlineAll d n (some (key, params, body)) ((replaced a w, replaced a v) :: a) ms l
        | _ => none
      else (inlineAll d n (some (key, params, body)) a ms l).map fun x => ((.directive, t :: r.map (replaced a)) :: x.1, x.2)
    | _, _ => none
  | none, a, ms, st :: l =>
    match st.kind, st.tokens with
    | .label, ts => (inlineAll d n none a ms l).map fun r => ((.label, ts) :: r.1, r.2)
    | .instr, ts =>
      match writeOut d a ms n [] ts with
      | none => none
      | some lines => (inlineAll d n none a ms l).map fun r => (lines.map (fun ts => (.instr, ts)) ++ r.1, r.2)
    | .directive, [] => none
    | .directive, t :: r =>
      if isNamed d t "include" || isNamed d t "endmacro" then none
      else if isNamed d t "macro" then
        match r.map (replaced a) with
        | [] => none
        | name :: params => inlineAll d n (some (d.key name, params, [])) a ms l
      else if isNamed d t "define" then
        match r with
        | [w, v] => inlineAll d n none ((replaced a w, replaced a v) :: a) ms l
        | _ => none
      else (inlineAll d n none a ms l).map fun x => ((.directive, t :: r.map (replaced a)) :: x.1, x.2)

/-- The second sources are the first with definitions and macros written out. The tokens that come out do not contain words the tool
itself defines (`own`). -/
inductive Inlined (d : Dialect) (text : Str → Option Str) (n : Nat) (own : List (Str × Str)) : List (Str × Str) → MacroTable → List Str → List Str → Prop
  | nil {a ms} : Inlined d text n own a ms [] []
  | cons {a b ms ms' f f' fs fs' c c' l l'} : text f = some c → text f' = some c' → tokenize c = .ok l → tokenize c' = .ok l' →
      inlineAll d n none a ms l = some (l'.map content, b, ms') → (∀ st ∈ l', ∀ t ∈ st.tokens, replaced own t = t) → Inlined d text n own b ms' fs fs' →
      Inlined d text n own a ms (f :: fs) (f' :: fs')

end Necro.Spec
