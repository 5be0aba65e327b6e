import Verif.Lemmas.Compose
/-!
# More recursion depth does not change a successful run
-/

namespace Necro
open M (throw get modify lift forEach times)

/-- Whenever `m` succeeds, `m'` succeeds in the same way. -/
structure Le (m m' : M α) : Prop where
  le : ∀ s x s', m s = (.ok x, s') → m' s = (.ok x, s')

theorem Le.refl (m : M α) : Le m m := ⟨fun _ _ _ h => h⟩

theorem le_throw (e : Err) (m : M α) : Le (throw e) m := ⟨fun s x s' h => by
  rw [throw_eq] at h; injection h with h _; cases h⟩

theorem le_bind {m m' : M α} {f f' : α → M β} (hm : Le m m') (hf : ∀ x, Le (f x) (f' x)) :
    Le (m >>= f) (m' >>= f') := by
  refine ⟨fun s x s' h => ?_⟩
  rw [bind_eq] at h ⊢
  cases hs : m s with
  | mk r s1 =>
  rw [hs] at h
  cases r with
  | error e => injection h with h _; cases h
  | ok y =>
    rw [hm.le s y s1 hs]
    exact (hf y).le s1 x s' h

theorem le_forEach {α : Type} {f f' : α → M Unit} (l : List α) (hf : ∀ x, Le (f x) (f' x)) :
    Le (forEach l f) (forEach l f') := by
  induction l with
  | nil => exact .refl _
  | cons x l ih => exact le_bind (hf x) fun _ => ih

theorem le_macroStep {exec exec' : StmtRef → Stmt → M Unit} (he : ∀ r st, Le (exec r st) (exec' r st))
    (key : Str) (params args : List Str) (i : Nat) :
    Le (macroStep exec key params args i) (macroStep exec' key params args i) := by
  refine le_bind (.refl _) fun s => ?_
  cases dget s.macros key with
  | none => exact .refl _
  | some m =>
    simp only
    cases m.body[i]? with
    | none => exact .refl _
    | some st =>
      exact le_bind (.refl _) fun _ => le_bind (.refl _) fun _ => le_bind (he _ _) fun _ => .refl _

theorem le_execInstr (d : Dialect) : ∀ n ref st, Le (execInstr d n ref st) (execInstr d (n + 1) ref st) := by
  intro n
  induction n with
  | zero => intro ref st; rw [execInstr]; exact le_throw _ _
  | succ n ih =>
    intro ref st
    rw [execInstr, execInstr]
    refine le_bind (.refl _) fun s => ?_
    cases s.recording with
    | some key => exact .refl _
    | none =>
      simp only
      refine le_bind (.refl _) fun _ => ?_
      cases substituteWithDict st.tokens s.defines 0 with
      | nil => exact .refl _
      | cons w r =>
        simp only
        cases dget s.macros (d.key w) with
        | none => exact .refl _
        | some m => exact le_forEach _ fun i => le_macroStep ih _ _ _ _

theorem le_execDirective (d : Dialect) (env : Env) {rec rec' : Str → M Unit} (hr : ∀ c, Le (rec c) (rec' c))
    (l : List Str) : Le (execDirective d env rec l) (execDirective d env rec' l) := by
  refine le_bind (.refl _) fun s => ?_
  simp only
  cases substituteWithDict l s.defines 1 with
  | nil => exact .refl _
  | cons t r =>
    simp only
    by_cases hb : ∃ p ∈ builtinDirective d env rec, d.key p.1.toList = d.key (t.drop 1) ∧
        d.directives env (d.key p.1.toList) = none
    · obtain ⟨p, hp, hk, hn⟩ := hb
      have h1 := lookup_builtin hp hn
      rw [← hk, h1]
      rcases builtin_cases hp with h | rfl | rfl | rfl
      · have hp' : p ∈ builtinDirective d env rec' := by
          simp only [framedDirectives, builtinDirective, List.mem_cons, List.not_mem_nil, or_false] at h ⊢
          rcases h with h | h | h | h | h | h | h | h | h | h | h | h | h | h | h | h | h | h | h | h | h | h |
            h | h | h | h | h <;> simp [h]
        rw [lookup_builtin hp' hn]; exact .refl _
      · rw [lookup_builtin (rec := rec') (p := ("macro", directiveMacro d)) (by simp [builtinDirective]) hn]
        exact .refl _
      · rw [lookup_builtin (rec := rec') (p := ("section", directiveSection d)) (by simp [builtinDirective]) hn]
        exact .refl _
      · rw [show d.directives env (d.key ("include", directiveInclude env rec).1.toList) =
          d.directives env (d.key "include".toList) from rfl] at hn
        have h2 := lookup_builtin (rec := rec') (p := ("include", directiveInclude env rec')) (by simp [builtinDirective]) hn
        simp only at h2 ⊢
        rw [h2]
        exact le_bind (.refl _) fun _ => le_bind (.refl _) fun _ => le_bind (.refl _) fun _ => hr _
    · cases hc : d.directives env (d.key (t.drop 1)) with
      | some f => simp only [lookupDirective, hc]; exact .refl _
      | none =>
        have hno : lookupDirective d env rec (d.key (t.drop 1)) = none := by
          simp only [lookupDirective, hc]
          rw [dget_none_iff]
          intro h
          simp only [dkeys, List.mem_map] at h
          obtain ⟨_, ⟨p, hp, rfl⟩, hk⟩ := h
          exact hb ⟨p, hp, hk, by rw [show d.key p.1.toList = d.key (t.drop 1) from hk]; exact hc⟩
        rw [hno]; exact le_throw _ _

theorem le_execStmt (d : Dialect) (env : Env) (n : Nat) {rec rec' : Str → M Unit} (hr : ∀ c, Le (rec c) (rec' c))
    (st : Stmt) : Le (execStmt d env n rec st) (execStmt d env (n + 1) rec' st) := by
  unfold execStmt
  split
  · exact le_execInstr d n none st
  · exact le_execDirective d env hr _
  · exact .refl _

theorem le_assemble (d : Dialect) (env : Env) : ∀ n code, Le (assemble d env n code) (assemble d env (n + 1) code) := by
  intro n
  induction n with
  | zero => intro code; rw [assemble]; exact le_throw _ _
  | succ n ih =>
    intro code
    rw [assemble, assemble]
    exact le_bind (.refl _) fun l => le_bind (le_forEach _ fun st => le_execStmt d env n ih st) fun _ => .refl _

end Necro
