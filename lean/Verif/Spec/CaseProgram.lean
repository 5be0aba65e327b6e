import Verif.Spec.Case
import Verif.Spec.Compose
import Verif.Spec.Expand
/-!
# Whole programs in upper and lower case
-/

namespace Necro.Spec

/-- What is known at a line: whether a macro is being recorded, and the definitions, the newest first; or nothing. -/
abbrev Known := Option (Bool × List (Str × Str))

/-- The second source is the first with first words in another case: the names of directives anywhere, and the mnemonics or names of macros at the lines
where it is known that no macro is being recorded and that neither spelling is defined. What is known is followed through labels, instructions,
macros and definitions; it is lost at any other line that is written as it was, such as an `.include`. The last argument is what is known at the end. -/
inductive RecasedLines (d : Dialect) : Known → List Stmt → List (Kind × List Str) → Known → Prop
  | nil (k : Known) : RecasedLines d k [] [] k
  | any {k k' l l'} (st : Stmt) : RecasedLines d none l l' k' → RecasedLines d k (st :: l) (content st :: l') k'
  | plain {k k' l l'} (st : Stmt) : st.kind ≠ .directive → RecasedLines d k l l' k' → RecasedLines d k (st :: l) (content st :: l') k'
  | instr {a k' l l'} {t t' : Str} {rest : List Str} {line : Nat} : eqNoCase t t' → replaced a t = t → replaced a t' = t' → RecasedLines d (some (false, a)) l l' k' →
      RecasedLines d (some (false, a)) (⟨.instr, t :: rest, line⟩ :: l) ((.instr, t' :: rest) :: l') k'
  | anyDirective {k k' l l'} {t t' : Str} {args : List Str} {line : Nat} : eqNoCase t t' → RecasedLines d none l l' k' →
      RecasedLines d k (⟨.directive, t :: args, line⟩ :: l) ((.directive, t' :: args) :: l') k'
  | directive {k k' l l'} {t t' : Str} {args : List Str} {line : Nat} : eqNoCase t t' → (∀ w ∈ ["macro", "endmacro", "include", "define"], isNamed d t w = false) →
      RecasedLines d k l l' k' → RecasedLines d k (⟨.directive, t :: args, line⟩ :: l) ((.directive, t' :: args) :: l') k'
  | opens {a k' l l'} {t t' : Str} {args : List Str} {line : Nat} : eqNoCase t t' → isNamed d t "macro" = true → RecasedLines d (some (true, a)) l l' k' →
      RecasedLines d (some (false, a)) (⟨.directive, t :: args, line⟩ :: l) ((.directive, t' :: args) :: l') k'
  | closes {a k' l l'} {t t' : Str} {args : List Str} {line : Nat} : eqNoCase t t' → isNamed d t "endmacro" = true → RecasedLines d (some (false, a)) l l' k' →
      RecasedLines d (some (true, a)) (⟨.directive, t :: args, line⟩ :: l) ((.directive, t' :: args) :: l') k'
  | define {r a k' l l'} {t t' w v : Str} {line : Nat} : eqNoCase t t' → isNamed d t "define" = true → RecasedLines d (some (r, (replaced a w, replaced a v) :: a)) l l' k' →
      RecasedLines d (some (r, a)) (⟨.directive, [t, w, v], line⟩ :: l) ((.directive, [t', w, v]) :: l') k'

/-- The sources of two programs, file by file: the same file, or one in another case. -/
inductive RecasedFiles (d : Dialect) (text : Str → Option Str) : Known → List Str → List Str → Prop
  | nil {k} : RecasedFiles d text k [] []
  | same {k fs fs'} (f : Str) : RecasedFiles d text none fs fs' → RecasedFiles d text k (f :: fs) (f :: fs')
  | file {k k' fs fs' f f' c c' l l'} : text f = some c → text f' = some c' → tokenize c = .ok l → tokenize c' = .ok l' → RecasedLines d k l (l'.map content) k' →
      RecasedFiles d text k' fs fs' → RecasedFiles d text k (f :: fs) (f' :: fs')

end Necro.Spec
