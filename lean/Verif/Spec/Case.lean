import Verif.Model.Asm
import Verif.Spec.Whole
/-!
# Upper and lower case

What it is for a source to be another one with the mnemonics and the names of directives in another letter case.
-/

namespace Necro.Spec

/-- Statement `b` is `a` with the letters of its first word, which is a mnemonic, the name of a macro or the name of a directive,
in another case. -/
inductive Recased : Stmt → Stmt → Prop
  | same (a : Stmt) : Recased a a
  | instr {t t' : Str} {rest : List Str} {line : Nat} : eqNoCase t t' → Recased ⟨.instr, t :: rest, line⟩ ⟨.instr, t' :: rest, line⟩
  | directive {t t' : Str} {args : List Str} {line : Nat} : eqNoCase t t' → Recased ⟨.directive, t :: args, line⟩ ⟨.directive, t' :: args, line⟩

/-- The statements of `b` are those of `a` in another case. -/
inductive RecasedAll : List Stmt → List Stmt → Prop
  | nil : RecasedAll [] []
  | cons {a b : Stmt} {l l' : List Stmt} : Recased a b → RecasedAll l l' → RecasedAll (a :: l) (b :: l')

/-- In state `s` the first word of an instruction can be written as in `a` or as in `b`: no macro is being recorded, which would
keep the words as they are written, and there is no `.define` for either. -/
def MayRecase (s : St) (a b : Stmt) : Prop :=
  a.kind = .instr → s.recording = none ∧ ∀ t rest, (a.tokens = t :: rest ∨ b.tokens = t :: rest) → substituteWithDict [t] s.defines 0 = [t]

end Necro.Spec
