import Verif.Spec.Compose
import Verif.Model.Asm
/-!
# Adding macros to a program
-/

namespace Necro.Spec

/-- The definition of a macro in a source: `.macro name params`, instructions, `.endmacro`. -/
structure MacroText where
  head : Str
  /-- The name and the parameters as they are written. -/
  args : List Str
  body : List Stmt
  close : Str
  rest : List Str
  line : Nat
  last : Nat

/-- Its statements. -/
def MacroText.stmts (m : MacroText) : List Stmt :=
  ⟨.directive, m.head :: m.args, m.line⟩ :: m.body ++ [⟨.directive, m.close :: m.rest, m.last⟩]

/-- It is well formed, and the name it defines is neither that of an instruction nor of a macro that is there already. -/
structure MacroText.Fresh (d : Dialect) (m : MacroText) (s : St) : Prop where
  head : d.key (m.head.drop 1) = d.key "macro".toList
  close : d.key (m.close.drop 1) = d.key "endmacro".toList
  body : ∀ st ∈ m.body, st.kind = .instr
  named : ∃ name params, substituteWithDict m.args s.defines 0 = name :: params ∧ d.instrs (d.key name) = none ∧ s.macros.lookup (d.key name) = none

/-- The states differ in nothing but their macros. -/
def SameButMacros (s t : St) : Prop := t = { s with macros := t.macros }

end Necro.Spec
