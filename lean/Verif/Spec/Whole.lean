import Verif.Spec.Program
import Verif.Spec.Compose
import Verif.Lemmas.Lookup
/-!
# A line of a program that builds

The line may be anywhere in the program: in one of several sources, in an included file, or in the body of a macro.
-/

namespace Necro.Spec

/-- The step succeeds in state `s` and ends in `s'`. -/
def Runs (m : M Unit) (s s' : St) : Prop := m s = (.ok (), s')

/-- A part of a program: the sources one after the other, one of them, a statement of it, or an instruction, which may be
statement `ref` of the body of a macro. -/
inductive Part
  | sources (codes : List Str)
  | source (code : Str)
  | stmt (st : Stmt)
  | instr (ref : StmtRef) (tokens : List Str) (line : Nat)

/-- `Visits d env s t rest s1 n part a e`: the part of the program runs from state `a` to state `e`, and on the way comes,
in state `s`, to the instruction line `t rest` (after replacing parameters of macros and defined names), which is no macro
and is not being recorded as the body of a macro.  Running the line takes `s` to `s1`. -/
inductive Visits (d : Dialect) (env : Env) (s : St) (t : Str) (rest : List Str) (s1 : St) : Nat → Part → St → St → Prop
  | sources {n : Nat} {pre post : List Str} {code : Str} {a b c e : St} : Runs (M.forEach pre (assemble d env n)) a b →
      Visits d env s t rest s1 n (.source code) b c → Runs (M.forEach post (assemble d env n)) c e →
      Visits d env s t rest s1 n (.sources (pre ++ code :: post)) a e
  | source {n : Nat} {code : Str} {pre post : List Stmt} {st : Stmt} {a b c e : St} : tokenize code = .ok (pre ++ st :: post) →
      Runs (M.forEach pre (execStmt d env n (assemble d env n))) a b → Visits d env s t rest s1 n (.stmt st) b c →
      Runs (execStmts d env n (assemble d env n) post) c e → Visits d env s t rest s1 (n + 1) (.source code) a e
  | included {n line : Nat} {t0 arg name code : Str} {a e : St} : IsDirectiveToken d t0 "include" →
      d.directives env (d.key "include".toList) = none → substituteWithDict [arg] a.defines 0 = [name] →
      env.text (fileName name) = some code → name ≠ [] → Visits d env s t rest s1 n (.source code) a e →
      Visits d env s t rest s1 n (.stmt ⟨.directive, [t0, arg], line⟩) a e
  | instr {n line : Nat} {tokens : List Str} {a e : St} : Visits d env s t rest s1 n (.instr none tokens line) a e →
      Visits d env s t rest s1 n (.stmt ⟨.instr, tokens, line⟩) a e
  | line {n ln : Nat} {ref : StmtRef} {tokens : List Str} {a : St} : a.recording = none → substituteWithDict tokens a.defines 0 = t :: rest →
      a.macros.lookup (d.key t) = none → Runs (writeBack ref (t :: rest)) a s →
      Runs (execInstr d (n + 1) none ⟨.instr, tokens, ln⟩) s s1 → Visits d env s t rest s1 (n + 1) (.instr ref tokens ln) a s1
  | expanded {n ln i line : Nat} {ref : StmtRef} {tokens : List Str} {t0 : Str} {args body : List Str} {m m' : Macro} {pre post : List Nat}
      {dict : List (Str × Str)} {a a' b c e f g : St} :
      a.recording = none → substituteWithDict tokens a.defines 0 = t0 :: args → a.macros.lookup (d.key t0) = some m →
      Runs (writeBack ref (t0 :: args)) a a' → List.range m.body.length = pre ++ i :: post →
      Runs (M.forEach pre (macroStep (execInstr d n) (d.key t0) m.args args)) a' b →
      b.macros.lookup (d.key t0) = some m' → m'.body[i]? = some ⟨.instr, body, line⟩ → macroDict m.args args [] = .ok dict →
      Runs (setBodyTokens (d.key t0) i (substituteWithDict body dict 0)) b c →
      Visits d env s t rest s1 n (.instr (some (d.key t0, i)) (substituteWithDict body dict 0) line) c e →
      Runs (setBodyTokens (d.key t0) i body) e f →
      Runs (M.forEach post (macroStep (execInstr d n) (d.key t0) m.args args)) f g →
      Visits d env s t rest s1 (n + 1) (.instr ref tokens ln) a g

/-- The sources are assembled, one after the other, to `s'` and linked to `s''`; on the way they come, in state `s`, to the
instruction line `t rest`.  No label is written into the program as ascii text. -/
structure BuiltLine (d : Dialect) (env : Env) (depth : Nat) (codes : List Str) (s : St) (t : Str) (rest : List Str) (s' s'' : St) : Prop where
  visits : ∃ s1, Visits d env s t rest s1 depth (.sources codes) d.init s'
  linked : link d .dummy s' = (.ok (), s'')
  noText : ∀ e ∈ s'.relocs, e.2.hook = none

end Necro.Spec
