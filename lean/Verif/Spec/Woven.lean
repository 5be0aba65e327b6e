import Verif.Spec.Inline
import Verif.Spec.Compose
/-!
# What a program with macros and included files stands for
-/

namespace Necro.Spec

/-- The second lines are the first with definitions and macros written out: `a` and `ms` are the tables before the lines, `b` and `ms'`
those after them. A line that includes a file stands for a line that includes another file, in which they are written out; the tables
that the included file leaves are used from there on. The number bounds how deep included files and calls are nested. -/
inductive Woven (d : Dialect) (text : Str → Option Str) (own : List (Str × Str)) :
    Nat → List (Str × Str) → MacroTable → List Stmt → List Stmt → List (Str × Str) → MacroTable → Prop
  | lines {n a b ms ms' l l'} : inlineAll d (n + 1) none a ms l = some (l'.map content, b, ms') → (∀ st ∈ l', ∀ t ∈ st.tokens, replaced own t = t) →
      Woven d text own (n + 1) a ms l l' b ms'
  | join {n a b c ms ms' ms'' l l' k k'} : Woven d text own n a ms l l' b ms' → Woven d text own n b ms' k k' c ms'' → Woven d text own n a ms (l ++ k) (l' ++ k') c ms''
  | file {n a b ms ms' t t' w w' i i' c c' l l'} : isNamed d t "include" → isNamed d t' "include" → replaced a w ≠ [] → w' ≠ [] → replaced own w' = w' →
      text (fileName (replaced a w)) = some c → text (fileName w') = some c' → tokenize c = .ok l → tokenize c' = .ok l' → Woven d text own n a ms l l' b ms' →
      Woven d text own (n + 1) a ms [⟨.directive, [t, w], i⟩] [⟨.directive, [t', w'], i'⟩] b ms'

/-- The same for the sources of a program. -/
inductive WovenFiles (d : Dialect) (text : Str → Option Str) (n : Nat) (own : List (Str × Str)) : List (Str × Str) → MacroTable → List Str → List Str → Prop
  | nil {a ms} : WovenFiles d text n own a ms [] []
  | cons {a b ms ms' f f' fs fs' c c' l l'} : text f = some c → text f' = some c' → tokenize c = .ok l → tokenize c' = .ok l' →
      Woven d text own n a ms l l' b ms' → WovenFiles d text n own b ms' fs fs' → WovenFiles d text n own a ms (f :: fs) (f' :: fs')

end Necro.Spec
