import Verif.Model.Report
/-!
# Places in the sources

What it is for a place named by an error message to be a line of a file.
-/

namespace Necro.Spec

/-- The outcome without the places. -/
def forget (r : Except (Err × Option Place) Unit × (St × Sites)) : Except Err Unit × St :=
  (match r.1 with | .ok () => .ok () | .error e => .error e.1, r.2.1)

/-- `l'` is `l` with some names replaced, any number of times (parameters of macros, defined names). -/
inductive Reworded : List Str → List Str → Prop
  | same (l : List Str) : Reworded l l
  | step {l l' : List Str} (dict : List (Str × Str)) (start : Nat) : Reworded l l' → Reworded l (substituteWithDict l' dict start)

/-- The file `file` has, at line `line`, a statement with these words, up to replacing names.  `sources` are the files a program
is made of. -/
def StandsAt (sources : Option Str → Str → Prop) (file : Option Str) (line : Nat) (tokens : List Str) : Prop :=
  ∃ code stmts, sources file code ∧ tokenize code = .ok stmts ∧ ∃ st ∈ stmts, st.line = line ∧ Reworded st.tokens tokens

/-- The files that can be included, and a source. -/
def SourceOr (env : Env) (file : Option Str) (code : Str) (f : Option Str) (c : Str) : Prop :=
  (f = file ∧ c = code) ∨ ∃ name, f = some name ∧ env.text name = some c

/-- The files of a list of sources that are there. -/
def AnyFile (env : Env) (f : Option Str) (c : Str) : Prop := ∃ name, f = some name ∧ env.text name = some c

/-- A source whose first statements are assembled without error, up to the one that fails. -/
structure FailsAt (d : Dialect) (env : Env) (n : Nat) (code : Str) (s : St) (st : Stmt) (s1 : St) (e : Err) : Prop where
  source : ∃ pre post, tokenize code = .ok (pre ++ st :: post) ∧ M.forEach pre (execStmt d env n (assemble d env n)) s = (.ok (), s1)
  fails : (execStmt d env n (assemble d env n) st s1).1 = .error e

end Necro.Spec
