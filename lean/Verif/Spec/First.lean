import Verif.Spec.Report
import Verif.Spec.Source
/-!
# The first error

What it is for a program to be rejected with an error message, and for a file to be another one with lines added at the end.
-/

namespace Necro.Spec

/-- Assembling the sources, before anything is linked, stops with this exception; the place is the one in its message. -/
def Reports (d : Dialect) (env : Env) (depth : Nat) (fs : List Str) (r : Err × Option Place) : Prop :=
  (sourcesR d env depth fs (d.init, [])).1 = .error r

/-- The file `f'` has the text of `f`, which ends outside literals, and then further lines, whatever they say, but that no label
consists of several words (a file with one is rejected before its first line is looked at). -/
def Extended (text : Str → Option Str) (f f' : Str) : Prop :=
  ∃ a b stmts, text f = some a ∧ Closed a ∧ text f' = some (a ++ '\n' :: b) ∧ tokenize b = .ok stmts

end Necro.Spec
