import Verif.Model.Py
/-!
# Text-level specifications: identifier runs and case-insensitive equality
-/

namespace Necro.Spec

/-- A character of an identifier: ASCII letter, digit, underscore or dot. -/
def nameChar (c : Char) : Bool := c.isAlphanum || c == '_' || c == '.'

/-- `Subst look s t`: `t` is `s` with every *maximal* run of name characters `r`
replaced by `look r`, everything else being copied, in a single left-to-right pass. -/
inductive Subst (look : Str → Str) : Str → Str → Prop
  | nil : Subst look [] []
  | sep (c : Char) (s t : Str) : nameChar c = false → Subst look s t → Subst look (c :: s) (c :: t)
  | run (r s t : Str) : r ≠ [] → (∀ c ∈ r, nameChar c = true) →
      (∀ c, s.head? = some c → nameChar c = false) →
      Subst look s t → Subst look (r ++ s) (look r ++ t)

/-- Equality ignoring (ASCII) case. -/
def eqNoCase (a b : Str) : Prop := a.map Char.toUpper = b.map Char.toUpper

end Necro.Spec
