import Verif.Model.Asm
import Verif.Spec.Source
/-!
# Lines that do not concern the bytes
-/

namespace Necro.Spec

/-- The statement is a directive with one of these names, in the letter case the class accepts. -/
def isLine (d : Dialect) (names : List String) (st : Stmt) : Bool :=
  st.kind == .directive && match st.tokens with
    | [] => false
    | t :: _ => names.any fun w => d.key (t.drop 1) == d.key w.toList

/-- What is left of a source without these lines, whatever the line numbers. -/
def without (d : Dialect) (names : List String) (l : List Stmt) : List (Kind × List Str) :=
  (l.filter fun st => !isLine d names st).map fun st => (st.kind, st.tokens)

/-- The second text is the first without its `.export` lines, and with `.log` lines where one likes. -/
def Hushed (d : Dialect) (code code' : Str) : Prop :=
  ∀ l, tokenize code = .ok l → ∃ l', tokenize code' = .ok l' ∧ without d ["log", "export"] l = without d ["log"] l'

end Necro.Spec
