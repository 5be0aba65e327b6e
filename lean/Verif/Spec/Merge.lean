import Verif.Spec.Compose
import Verif.Spec.Expand
/-!
# A program in several files, and the same program in one
-/

namespace Necro.Spec

/-- The lines of a source with the lines of the files it includes in the places of its `.include` lines. What is followed through the lines: whether
a region with an end may be open, since it is filled where a file ends, and the definitions, the newest first, since they are put into the names of
files. An included file must not end in such a region. -/
inductive MergedLines (d : Dialect) (text : Str → Option Str) : Bool → List (Str × Str) → List Stmt → List (Kind × List Str) → Bool → List (Str × Str) → Prop
  | nil (o : Bool) (a : List (Str × Str)) : MergedLines d text o a [] [] o a
  | plain {o a l k o' b} (st : Stmt) : st.kind ≠ .directive → MergedLines d text o a l k o' b → MergedLines d text o a (st :: l) (content st :: k) o' b
  | directive {o a l k o' b} {t : Str} {args : List Str} {line : Nat} : (∀ w ∈ ["org", "include", "define"], isNamed d t w = false) →
      MergedLines d text o a l k o' b → MergedLines d text o a (⟨.directive, t :: args, line⟩ :: l) ((.directive, t :: args) :: k) o' b
  | org {o a l k o' b} {t x : Str} {line : Nat} : isNamed d t "org" = true →
      MergedLines d text false a l k o' b → MergedLines d text o a (⟨.directive, [t, x], line⟩ :: l) ((.directive, [t, x]) :: k) o' b
  | region {o a l k o' b} {t : Str} {args : List Str} {line : Nat} : isNamed d t "org" = true →
      MergedLines d text true a l k o' b → MergedLines d text o a (⟨.directive, t :: args, line⟩ :: l) ((.directive, t :: args) :: k) o' b
  | define {o a l k o' b} {t w v : Str} {line : Nat} : isNamed d t "define" = true →
      MergedLines d text o ((replaced a w, replaced a v) :: a) l k o' b → MergedLines d text o a (⟨.directive, [t, w, v], line⟩ :: l) ((.directive, [t, w, v]) :: k) o' b
  | included {o a c l k l' k' o' a' b} {t arg : Str} {line : Nat} : isNamed d t "include" = true → replaced a arg ≠ [] → text (fileName (replaced a arg)) = some c → tokenize c = .ok l →
      MergedLines d text o a l k false a' → MergedLines d text false a' l' k' o' b → MergedLines d text o a (⟨.directive, [t, arg], line⟩ :: l') (k ++ k') o' b

/-- The lines of several sources, one after another, with the files they include. None but the last may end in a region with an end. -/
inductive MergedFiles (d : Dialect) (text : Str → Option Str) : Bool → List (Str × Str) → List Str → List (Kind × List Str) → Prop
  | last {o a f c l k o' b} : text f = some c → tokenize c = .ok l → MergedLines d text o a l k o' b → MergedFiles d text o a [f] k
  | cons {o a f c l k b fs k'} : text f = some c → tokenize c = .ok l → MergedLines d text o a l k false b → MergedFiles d text false b fs k' →
      MergedFiles d text o a (f :: fs) (k ++ k')

/-- The file has these lines, but for line numbers. -/
def HasLines (text : Str → Option Str) (f : Str) (k : List (Kind × List Str)) : Prop := ∃ c l, text f = some c ∧ tokenize c = .ok l ∧ l.map content = k

end Necro.Spec
