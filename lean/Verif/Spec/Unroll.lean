import Verif.Spec.Compose
import Verif.Props.Regions
import Verif.Props.Unused
/-!
# Lines that give the same bytes wherever they stand
-/

namespace Necro.Spec

/-- The state after `B` has been added to the output. -/
def advanced (B : Bytes) (s : St) : St := { s with bytes := s.bytes ++ B, counter := s.counter + B.length }

/-- The states agree except for the output, the position in it and whether a repeat block is open. -/
def Elsewhere (s t : St) : Prop := t = { s with bytes := t.bytes, counter := t.counter, rep := t.rep }

/-- Wherever the line stands, inside a repeat block or outside, it adds the bytes `B` to the output, and does nothing else. -/
def Steady (run : Stmt → M Unit) (s : St) (st : Stmt) (B : Bytes) : Prop :=
  ∀ t, Elsewhere s t → run st t = (.ok (), advanced B t)

/-- The lines `k` times, one after another. -/
def copies {α : Type} (k : Nat) (l : List α) : List α := (List.replicate k l).flatten

/-- After the sources `before`, the source `file` has a repeat block and `file'` has the lines of it written as many times as it
says. `pre` are the lines before it and `post` those after it; `s0` is the state before `pre`, `s1` the one before the block. -/
def Unrolled (d : Dialect) (env : Env) (depth : Nat) (before : List Str) (file file' : Str) : Prop :=
  ∃ (code code' : Str) (pre body post copied : List Stmt) (t t' a : Str) (l l' : Nat) (args' : List Str) (give : Stmt → Bytes) (k : Nat) (s0 s1 : St),
    env.text file = some code ∧ env.text file' = some code' ∧
    tokenize code = .ok (pre ++ (⟨.directive, [t, a], l⟩ :: body ++ [⟨.directive, t' :: args', l'⟩]) ++ post) ∧ tokenize code' = .ok copied ∧
    copied.map content = (pre ++ copies k body ++ post).map content ∧
    IsDirectiveToken d t "repeat" ∧ IsDirectiveToken d t' "endrepeat" ∧
    sourcesM d env (depth + 1) before d.init = (.ok (), s0) ∧ M.forEach pre (execStmt d env depth (assemble d env depth)) s0 = (.ok (), s1) ∧
    s1.rep = none ∧ 1 ≤ k ∧ parseInteger d.sy s1.labels (subToken s1.defines a) 64 false = .ok (some (k : Int)) ∧
    ∀ st ∈ body, Steady (execStmt d env depth (assemble d env depth)) s1 st (give st)

end Necro.Spec
