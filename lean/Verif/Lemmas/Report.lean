import Verif.Spec.Report
import Verif.Lemmas.Lookup
import Verif.Lemmas.Operands
/-!
# Carrying places along
-/

namespace Necro

open Spec
open RM (raise done seq each of sites)

/-! ## without the places -/

/-- `r` does what `m` does. -/
def Erases (r : RM) (m : M Unit) : Prop := ∀ x, forget (r x) = m x.1

namespace Erases

theorem raise (e : Err) (p : Option Place) : Erases (RM.raise e p) (M.throw e) := fun _ => rfl
theorem done : Erases RM.done (M.pure ()) := fun _ => rfl
theorem of (m : M Unit) (p : Err → Option Place) : Erases (RM.of m p) m := by
  intro x
  unfold RM.of
  rcases hm : m x.1 with ⟨r, s⟩
  cases r <;> rfl

theorem seq {r r' : RM} {m m' : M Unit} (h : Erases r m) (h' : Erases r' m') : Erases (RM.seq r r') (m >>= fun _ => m') := by
  intro x
  have e := h x
  rw [bind_eq]
  unfold RM.seq
  rcases hr : r x with ⟨o, y⟩
  rw [hr] at e
  cases o with
  | error e' => rw [← e]; rfl
  | ok u => rw [← e]; exact h' y

theorem each {l : List α} {f : α → RM} {g : α → M Unit} (h : ∀ a, Erases (f a) (g a)) : Erases (RM.each l f) (M.forEach l g) := by
  induction l with
  | nil => exact done
  | cons a l ih => exact seq (h a) ih

theorem then_sites {r : RM} {m : M Unit} (f : St → Sites → Sites) (h : Erases r m) : Erases (RM.seq r (RM.sites f)) m := by
  intro x
  have e := h x
  unfold RM.seq
  rcases hr : r x with ⟨o, y⟩
  rw [hr] at e
  cases o with
  | error e' => exact e
  | ok u => exact e

end Erases

theorem macroStepR_erases {exec : Option Str → StmtRef → Stmt → RM} {exec' : StmtRef → Stmt → M Unit} (h : ∀ f r st, Erases (exec f r st) (exec' r st))
    (key : Str) (ps as : List Str) (i : Nat) : Erases (macroStepR exec key ps as i) (macroStep exec' key ps as i) := by
  intro x
  unfold macroStepR macroStep
  rw [bind_eq, get_eq]
  dsimp only
  cases dget x.1.macros key with
  | none => rfl
  | some m =>
    dsimp only
    cases m.body[i]? with
    | none => rfl
    | some st =>
      dsimp only
      rw [bind_eq, lift_eq]
      cases macroDict ps as [] with
      | error e => rfl
      | ok md =>
        dsimp only
        exact Erases.seq (.of _ _) (.seq (h _ _ _) (.of _ _)) x

theorem execInstrR_erases (d : Dialect) : ∀ n file ref st, Erases (execInstrR d n file ref st) (execInstr d n ref st)
  | 0, _, _, _ => .raise _ _
  | n + 1, file, ref, st => by
    intro x
    unfold execInstrR execInstr
    rw [bind_eq, get_eq]
    dsimp only
    cases x.1.recording with
    | some key => exact Erases.then_sites _ (.of _ _) x
    | none =>
      dsimp only
      refine Erases.seq (.of _ _) ?_ x
      cases substituteWithDict st.tokens x.1.defines 0 with
      | nil => exact .raise _ _
      | cons t rest =>
        dsimp only
        cases dget x.1.macros (d.key t) with
        | some m => exact .each fun i => macroStepR_erases (execInstrR_erases d n) _ _ _ i
        | none =>
          exact Erases.of (encodeLine d t (t :: rest)) _

theorem execDirectiveR_erases (d : Dialect) (env : Env) {rec : Str → M Unit} {recR : Option Str → Str → RM} (h : ∀ f c, Erases (recR f c) (rec c))
    (file : Option Str) (st : Stmt) : Erases (execDirectiveR d env rec recR file st) (execDirective d env rec st.tokens) := by
  intro x
  unfold execDirectiveR
  dsimp only
  split
  · next he =>
    unfold execDirective
    rw [bind_eq, get_eq]
    dsimp only
    rw [he]
    rfl
  · next t rest he =>
    rw [he]
    split
    · next hi =>
      obtain ⟨h1, h2⟩ := hi
      have h1 : d.directives env (d.key (t.drop 1)) = none := by simpa using h1
      have hl : lookupDirective d env rec (d.key (t.drop 1)) = some (directiveInclude env rec) := by
        rw [h2]
        exact lookup_builtin (p := ("include", directiveInclude env rec)) (by simp [builtinDirective]) (by rw [h2] at h1; exact h1)
      unfold execDirective
      rw [bind_eq, get_eq]
      dsimp only
      rw [he]
      dsimp only
      rw [hl]
      show _ = directiveInclude env rec (t :: rest) x.1
      unfold includeR directiveInclude
      rw [bind_eq]
      rcases rest with _ | ⟨a, _ | ⟨b, rest⟩⟩
      · rfl
      · have e2 : exactlyTwo [t, a] x.1 = (.ok a, x.1) := rfl
        rw [e2]
        dsimp only
        rw [bind_eq]
        have hs := stringify_state a x.1
        rcases hst : stringify a x.1 with ⟨r, s'⟩
        rw [hst] at hs
        cases hs
        cases r with
        | error e => rfl
        | ok name =>
          dsimp only
          rw [bind_eq]
          cases env.text name with
          | none => rfl
          | some code => exact h _ _ x
      · rfl
    · exact Erases.then_sites _ (.of _ _) x

theorem assembleR_erases (d : Dialect) (env : Env) : ∀ n file code, Erases (assembleR d env n file code) (assemble d env n code)
  | 0, _, _ => .raise _ _
  | n + 1, file, code => by
    intro x
    unfold assembleR assemble
    rw [bind_eq, lift_eq]
    cases tokenize code with
    | error e => rfl
    | ok stmts =>
      dsimp only
      unfold execStmts
      refine Erases.seq (.each fun st => ?_) (.seq (.of _ _) (.of _ _)) x
      unfold execStmtR execStmt
      cases st.kind with
      | instr => exact execInstrR_erases d n _ _ _
      | directive => exact execDirectiveR_erases d env (assembleR_erases d env n) _ _
      | label => exact .of _ _

end Necro
