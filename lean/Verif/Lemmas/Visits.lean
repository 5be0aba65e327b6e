import Verif.Spec.Whole
import Verif.Props.Enclosed
import Verif.Props.Compose
/-!
# Coming to a line of a program
-/

namespace Necro
open Spec
open M (throw get modify lift forEach times)

variable {d : Dialect} {env : Env} {s s1 a e : St} {t : Str} {rest : List Str} {n : Nat} {p : Part}

theorem okForEach {α : Type} {R : St → St → Prop} (refl : ∀ s, R s s) (trans : ∀ {a b c}, R a b → R b c → R a c) {f : α → M Unit} :
    ∀ {l : List α}, (∀ x ∈ l, OkKeeps R (f x)) → OkKeeps R (forEach l f)
  | [], _ => fun s u s' h => by
    rw [forEach_nil] at h
    cases h; exact refl s
  | x :: l, hf => fun s u s' h => by
    rw [forEach_cons] at h
    rcases hx : f x s with ⟨r, s2⟩
    rw [hx] at h
    cases r with
    | error e => cases h
    | ok u => exact trans (hf x (by simp) s u s2 hx) (okForEach refl trans (fun y hy => hf y (by simp [hy])) _ _ _ h)

/-- A relation kept by every step of a program holds from its start to the line, over the line, and from the line to its end. -/
theorem Spec.Visits.keeps {R : St → St → Prop} (refl : ∀ s, R s s) (trans : ∀ {a b c}, R a b → R b c → R a c)
    (hA : ∀ n c, OkKeeps R (assemble d env n c)) (hS : ∀ n st, OkKeeps R (execStmt d env n (assemble d env n) st))
    (hE : ∀ n l, OkKeeps R (execStmts d env n (assemble d env n) l)) (hI : ∀ n ref st, OkKeeps R (execInstr d n ref st))
    (hT : ∀ k i ts, OkKeeps R (setBodyTokens k i ts)) (hM : ∀ n k ps as i, OkKeeps R (macroStep (execInstr d n) k ps as i))
    (h : Visits d env s t rest s1 n p a e) : R a s ∧ R s s1 ∧ R s1 e := by
  have hW : ∀ ref ts, OkKeeps R (writeBack ref ts) := by
    intro ref ts
    cases ref with
    | none => intro s u s' h; cases h; exact refl s
    | some p => exact hT _ _ _
  induction h with
  | sources h1 _ h2 ih =>
    exact ⟨trans (okForEach refl trans (fun c _ => hA _ c) _ _ _ h1) ih.1, ih.2.1, trans ih.2.2 (okForEach refl trans (fun c _ => hA _ c) _ _ _ h2)⟩
  | source _ h1 _ h2 ih =>
    exact ⟨trans (okForEach refl trans (fun c _ => hS _ c) _ _ _ h1) ih.1, ih.2.1, trans ih.2.2 (hE _ _ _ _ _ h2)⟩
  | included _ _ _ _ _ _ ih => exact ih
  | instr _ ih => exact ih
  | line _ _ _ h1 h2 => exact ⟨hW _ _ _ _ _ h1, hI _ _ _ _ _ _ h2, refl _⟩
  | expanded _ _ _ h1 _ h2 _ _ _ h3 _ h4 h5 ih =>
    exact ⟨trans (hW _ _ _ _ _ h1) (trans (okForEach refl trans (fun i _ => hM _ _ _ _ i) _ _ _ h2) (trans (hT _ _ _ _ _ _ h3) ih.1)), ih.2.1,
      trans ih.2.2 (trans (hT _ _ _ _ _ _ h4) (okForEach refl trans (fun i _ => hM _ _ _ _ i) _ _ _ h5))⟩

theorem Spec.Visits.refRel {Good : Reloc → Nat → Prop} {R : St → St → Prop} (hr : RefRel Good R) (hd : GoodData Good) (hg : GoodLines Good d)
    (hc : CustomOk d env R) (h : Visits d env s t rest s1 n p a e) : R a s ∧ R s s1 ∧ R s1 e := by
  have hA := ok_assemble hr hd hg env hc
  refine h.keeps (fun s => hr.same s s rfl (Nat.le_refl _)) hr.trans hA (fun n st => ok_execStmt hr hd hg env n _ (hA n) hc st)
    (fun n l => ok_execStmts hr hd hg env n _ (hA n) hc l) (ok_execInstr hr d hg) (ok_setBodyTokens hr)
    (fun n k ps as i => ok_macroStep hr _ (ok_execInstr hr d hg n) k ps as i)

theorem Keeps.okay {α : Type} {R : St → St → Prop} {m : M α} (h : Keeps R m) : OkKeeps R m := fun s a s' hs => by
  have := h s
  rw [hs] at this
  exact this

theorem Spec.Visits.asmRel {R : St → St → Prop} (hr : AsmRel d R) (hc : CustomKeeps d env R) (h : Visits d env s t rest s1 n p a e) :
    R a s ∧ R s s1 ∧ R s1 e := by
  have hA := keeps_assemble hr env hc
  have hb := hr.toInstrRel.toBodyRel
  refine h.keeps hr.refl hr.trans (fun n c => (hA n c).okay) (fun n st => (keeps_execStmt hr env n _ (hA n) hc st).okay)
    (fun n l => (keeps_execStmts hr env n _ (hA n) hc l).okay) (fun n ref st => (keeps_execInstr hr.toInstrRel d n ref st).okay)
    (fun k i ts => (keeps_setBodyTokens hb k i ts).okay)
    (fun n k ps as i => (keeps_macroStep hb _ (keeps_execInstr hr.toInstrRel d n) k ps as i).okay)

/-! ## The line itself -/

theorem Spec.Visits.line_run (h : Visits d env s t rest s1 n p a e) : ∃ depth tokens ln, s.recording = none ∧
    substituteWithDict tokens s.defines 0 = t :: rest ∧ s.macros.lookup (d.key t) = none ∧
    execInstr d (depth + 1) none ⟨.instr, tokens, ln⟩ s = (.ok (), s1) := by
  induction h with
  | sources _ _ _ ih => exact ih
  | source _ _ _ _ ih => exact ih
  | included _ _ _ _ _ _ ih => exact ih
  | instr _ ih => exact ih
  | expanded _ _ _ _ _ _ _ _ _ _ _ _ _ ih => exact ih
  | line h1 h2 h3 h4 h5 =>
    unfold Runs at h4
    rw [writeBack_eq] at h4
    cases h4
    refine ⟨_, _, _, h1, h2, ?_, h5⟩
    simp only
    unfold wbTable
    split
    · exact h3
    · rw [← dget_eq_lookup] at h3 ⊢; exact dget_setTok_none h3 _ _

/-! ## The visit is part of the run -/

/-- How the part of the program is run. -/
def Spec.Part.run (d : Dialect) (env : Env) (n : Nat) : Part → M Unit
  | .sources l => forEach l (assemble d env n)
  | .source code => assemble d env n code
  | .stmt st => execStmt d env n (assemble d env n) st
  | .instr ref tokens line => execInstr d n ref ⟨.instr, tokens, line⟩

theorem stringify_file {name : Str} (h : name ≠ []) (s : St) : stringify name s = (.ok (fileName name), s) := by
  cases name with
  | nil => exact absurd rfl h
  | cons c r =>
    have e : stringify (c :: r) s = (if isQuote c then (Pure.pure (unquote (c :: r)) : M Str) else Pure.pure (c :: r)) s := rfl
    rw [e]
    unfold fileName
    by_cases hq : isQuote c = true
    · rw [if_pos hq, if_pos (by simpa [isQuote] using hq)]; rfl
    · rw [if_neg hq, if_neg (by simpa [isQuote] using hq)]; rfl

theorem runs_append {α : Type} {f : α → M Unit} {l1 l2 : List α} {x y z : St} (h1 : forEach l1 f x = (.ok (), y)) (h2 : forEach l2 f y = (.ok (), z)) :
    forEach (l1 ++ l2) f x = (.ok (), z) := by
  rw [forEach_append, h1]; exact h2

theorem runs_cons {α : Type} {f : α → M Unit} {x : α} {l : List α} {a b c : St} (h1 : f x a = (.ok (), b)) (h2 : forEach l f b = (.ok (), c)) :
    forEach (x :: l) f a = (.ok (), c) := by
  rw [forEach_cons, h1]; exact h2

/-- The run of which the visit is a part. -/
theorem Spec.Visits.run (h : Visits d env s t rest s1 n p a e) : p.run d env n a = (.ok (), e) := by
  induction h with
  | sources h1 _ h2 ih => exact runs_append h1 (runs_cons ih h2)
  | @source n code pre post st a b c e htok h1 _ h2 ih =>
    show assemble d env (n + 1) code a = _
    rw [assemble, bind_eq, lift_eq, htok]
    unfold Runs execStmts at h2
    unfold execStmts
    simp only
    rw [bind_eq] at h2 ⊢
    rcases h3 : forEach post (execStmt d env n (assemble d env n)) c with ⟨r, x⟩
    rw [h3] at h2
    cases r with
    | error e => cases h2
    | ok u => rw [runs_append h1 (runs_cons ih h3)]; exact h2
  | @included n line t0 arg name code a e ht hover hsub hcode hne _ ih =>
    show execStmt d env n (assemble d env n) ⟨.directive, [t0, arg], line⟩ a = _
    rw [execStmt_directive, exec_builtin (p := ("include", directiveInclude env (assemble d env n)))
      (by simp [builtinDirective]) hover ht [arg] a, hsub]
    simp only [directiveInclude, exactlyTwo]
    rw [bind_eq, pure_eq]
    simp only
    rw [bind_eq, stringify_file hne]
    simp only
    rw [bind_eq, hcode]
    exact ih
  | instr _ ih => exact ih
  | @line n ln ref tokens a h1 h2 h3 h4 h5 =>
    show execInstr d (n + 1) ref ⟨.instr, tokens, ln⟩ a = _
    unfold Runs at h4 h5
    rw [writeBack_eq] at h4
    cases h4
    rw [execInstr_eq d n ref _ a h1 h2]
    rw [execInstr_eq d n none ⟨.instr, tokens, ln⟩ { a with macros := wbTable ref (t :: rest) a.macros } h1 h2] at h5
    have h6 : dget (wbTable ref (t :: rest) a.macros) (d.key t) = none := by
      unfold wbTable
      rw [← dget_eq_lookup] at h3
      split
      · exact h3
      · exact dget_setTok_none h3 _ _
    simp only [h6] at h5
    rw [← dget_eq_lookup] at h3
    rw [h3]
    exact h5
  | @expanded n ln i line ref tokens t0 args body m m' pre post dict a a' b c e f g h1 h2 h3 h4 h5 h6 h7 h8 h9 h10 _ h11 h12 ih =>
    show execInstr d (n + 1) ref ⟨.instr, tokens, ln⟩ a = _
    unfold Runs at h4 h6 h10 h11 h12
    rw [writeBack_eq] at h4
    cases h4
    rw [execInstr_eq d n ref _ a h1 h2]
    rw [← dget_eq_lookup] at h3 h7
    rw [h3]
    simp only [runMacro, h5, List.drop_succ_cons, List.drop_zero]
    refine runs_append h6 (runs_cons ?_ h12)
    unfold macroStep
    rw [bind_eq, get_eq]
    simp only [h7, h8]
    rw [bind_eq, lift_eq, h9]
    simp only
    rw [bind_eq, h10]
    simp only
    rw [bind_eq]
    have ih' : execInstr d n (some (d.key t0, i)) ⟨.instr, substituteWithDict body dict 0, line⟩ c = (.ok (), e) := ih
    rw [ih']
    exact h11

/-- A line of the only source. -/
theorem visits_source {code : Str} {pre post : List Stmt} {tokens : List Str} {ln : Nat} (htok : tokenize code = .ok (pre ++ ⟨.instr, tokens, ln⟩ :: post))
    (h0 : forEach pre (execStmt d env (n + 1) (assemble d env (n + 1))) a = (.ok (), s)) (hsub : substituteWithDict tokens s.defines 0 = t :: rest)
    (hrec : s.recording = none) (hmac : s.macros.lookup (d.key t) = none) (hrun : assemble d env (n + 2) code a = (.ok (), e)) :
    ∃ s1, Visits d env s t rest s1 (n + 2) (.sources [code]) a e := by
  unfold assemble at hrun
  rw [bind_eq, htok] at hrun
  obtain ⟨x, s1, h0', h1, h2⟩ := execStmts_at (s := a) hrun
  rw [h0] at h0'
  cases h0'
  exact ⟨s1, .sources (pre := []) (post := []) rfl (.source htok h0 (.instr (.line hrec hsub hmac rfl h1)) h2) rfl⟩

end Necro
