import Verif.Spec.CaseProgram
import Verif.Props.Case
import Verif.Props.Inline
import Verif.Props.Split
/-!
# C92 for whole programs
-/

namespace Necro

open Spec
open M (throw get modify lift forEach times)

variable {env : Env} {depth : Nat} {rec : Str → M Unit}

/-- What is known is so. -/
def HoldsIn (k : Known) (s : St) : Prop := ∀ r a, k = some (r, a) → s.recording.isSome = r ∧ Tracks a s.defines

/-- The second run does what the first does, and `k` is so after a first run that succeeds. -/
structure Beside (m m' : M Unit) (k : Known) (s t : St) : Prop where
  same : (m s).1 = (m' t).1
  alike : Alike (m s).2 (m' t).2
  post : (m s).1 = .ok () → HoldsIn k (m s).2

theorem beside_bind {m m' : M Unit} {f f' : Unit → M Unit} {k k' : Known} {s t : St} (h : Beside m m' k s t) (hf : ∀ s t, Alike s t → HoldsIn k s → Beside (f ()) (f' ()) k' s t) :
    Beside (m >>= f) (m' >>= f') k' s t := by
  obtain ⟨h1, h2, h3⟩ := h
  have e1 : (m >>= f) s = match m s with | (.ok x, s') => f x s' | (.error e, s') => (.error e, s') := by rw [bind_eq]; rcases m s with ⟨_ | _, _⟩ <;> rfl
  have e2 : (m' >>= f') t = match m' t with | (.ok x, s') => f' x s' | (.error e, s') => (.error e, s') := by rw [bind_eq]; rcases m' t with ⟨_ | _, _⟩ <;> rfl
  rcases hs : m s with ⟨r, s1⟩
  rcases ht : m' t with ⟨r', t1⟩
  rw [hs, ht] at h1 h2
  rw [hs] at h3 e1
  rw [ht] at e2
  dsimp only at h1 h2 h3
  subst h1
  cases r with
  | error e => exact ⟨by rw [e1, e2], by rw [e1, e2]; exact h2, by rw [e1]; intro h; cases h⟩
  | ok u =>
    have := hf s1 t1 h2 (h3 rfl)
    exact ⟨by rw [e1, e2]; exact this.same, by rw [e1, e2]; exact this.alike, by rw [e1]; exact this.post⟩

theorem holds_kept {k : Known} {s s' : St} (h : HoldsIn k s) (h1 : s'.recording = s.recording) (h2 : s'.defines = s.defines) : HoldsIn k s' := by
  intro r a e
  rw [h1, h2]
  exact h r a e

theorem holds_none (s : St) : HoldsIn none s := by intro r a e; cases e

theorem alike_tables {s t : St} (h : Alike s t) : t.recording = s.recording ∧ t.defines = s.defines := by
  obtain ⟨a, b, rfl, -, -⟩ := h
  exact ⟨rfl, rfl⟩

theorem kept_plain {d : Dialect} (st : Stmt) (h : st.kind ≠ .directive) (s : St) :
    (execStmt d env depth rec st s).2.recording = s.recording ∧ (execStmt d env depth rec st s).2.defines = s.defines := by
  obtain ⟨kind, tokens, line⟩ := st
  cases kind with
  | directive => exact absurd rfl h
  | label => exact ⟨label_recording d tokens s, ((aloof_execLabel d tokens).fields s).2.2.1⟩
  | instr => exact ⟨keeps_execInstr rel_sameRecording d depth none _ s, defines_execInstr depth none _ s⟩

theorem kept_directive {d : Dialect} (hc : CustomAloof d env) (hk : CustomDeaf d env) {t : Str} (h1 : ∀ w ∈ ["macro", "endmacro", "include", "define"], isNamed d t w = false) (args : List Str) (s : St) :
    (execDirective d env rec (t :: args) s).2.recording = s.recording ∧ (execDirective d env rec (t :: args) s).2.defines = s.defines := by
  have both : ∀ {m : M Unit}, Aloof m → Deaf m → (m s).2.recording = s.recording ∧ (m s).2.defines = s.defines := fun h1 h2 => ⟨h2.recording s, (h1.fields s).2.2.1⟩
  have rel : ∀ {m : M Unit}, Keeps SameRecording m → Keeps SameDefines m → (m s).2.recording = s.recording ∧ (m s).2.defines = s.defines := fun h1 h2 => ⟨h1 s, h2 s⟩
  unfold execDirective
  rw [bind_eq, get_eq]
  simp only [substitute_cons]
  cases hl : lookupDirective d env rec (d.key (t.drop 1)) with
  | none => exact ⟨rfl, rfl⟩
  | some f =>
    dsimp only
    unfold lookupDirective at hl
    cases hg : d.directives env (d.key (t.drop 1)) with
    | some q => rw [hg] at hl; cases hl; exact both (hc _ _ hg _) (hk _ _ hg _)
    | none =>
      rw [hg] at hl
      obtain ⟨p, hp, he⟩ := List.mem_map.1 (mem_of_dget hl)
      have hkey : d.key p.1.toList = d.key (t.drop 1) := congrArg Prod.fst he
      have hv : p.2 = f := congrArg Prod.snd he
      subst hv
      have hne : ∀ w ∈ ["macro", "endmacro", "include", "define"], p.1 ≠ w := by
        rintro w hw rfl
        have := h1 _ hw
        unfold isNamed at this
        rw [← hkey] at this
        simp at this
      rcases deaf_cases hp with h | rfl | rfl | rfl | rfl | rfl | rfl | rfl
      · exact both (aloof_builtin d env p (aloof_of_deaf h) _) (deaf_builtin d env p h _)
      · exact absurd rfl (hne "macro" (by simp))
      · exact absurd rfl (hne "endmacro" (by simp))
      · exact both (aloof_section d _) (deaf_section d _)
      · exact absurd rfl (hne "include" (by simp))
      · exact rel (keeps_directiveLog rel_sameRecording.toDataRel (fun _ _ => rfl) _) (keeps_directiveLog rel_sameDefines.toDataRel (fun _ _ => rfl) _)
      · exact rel (keeps_directiveExport rel_sameRecording.toDataRel (fun _ _ _ => rfl) _) (keeps_directiveExport rel_sameDefines.toDataRel (fun _ _ _ => rfl) _)
      · exact absurd rfl (hne "define" (by simp))

/-- The statements run side by side. -/
theorem beside_lines (tool : Tool) (hr : ∀ c, Resp (rec c) (rec c)) {k k' : Known} {l : List Stmt} {c : List (Kind × List Str)} (h : RecasedLines tool.dialect k l c k') :
    ∀ {l' : List Stmt}, l'.map content = c → ∀ s t, Alike s t → HoldsIn k s →
      Beside (forEach l (execStmt tool.dialect env depth rec)) (forEach l' (execStmt tool.dialect env depth rec)) k' s t := by
  have hc := resp_tool tool env
  have hn : ∀ w ∈ ["macro", "endmacro", "define"], tool.dialect.directives env (tool.dialect.key w.toList) = none :=
    fun w hw => tool_noOwn tool env w (by simp only [List.mem_cons, List.not_mem_nil, or_false] at hw ⊢; rcases hw with rfl | rfl | rfl <;> simp)
  -- a statement and one with the same words
  have one : ∀ {st x : Stmt} {k : Known} {s t : St}, content st = content x → Alike s t →
      ((execStmt tool.dialect env depth rec st s).1 = .ok () → HoldsIn k (execStmt tool.dialect env depth rec st s).2) →
      Beside (execStmt tool.dialect env depth rec st) (execStmt tool.dialect env depth rec x) k s t := by
    intro st x k s t e hst hp
    have := (resp_execStmt hc hr depth e).eq s t hst
    exact ⟨this.1, this.2, hp⟩
  -- a statement in another case
  have two : ∀ {st st' x : Stmt} {k : Known} {s t : St}, Recased st st' → content st' = content x → MayRecase s st st' → Alike s t →
      ((execStmt tool.dialect env depth rec st s).1 = .ok () → HoldsIn k (execStmt tool.dialect env depth rec st s).2) →
      Beside (execStmt tool.dialect env depth rec st) (execStmt tool.dialect env depth rec x) k s t := by
    intro st st' x k s t hre e hm hst hp
    have e0 := C92_statement tool env depth rec hre hm
    have := one (k := k) e hst (by rw [← e0]; exact hp)
    exact ⟨by rw [e0]; exact this.same, by rw [e0]; exact this.alike, by rw [e0]; exact this.post⟩
  have dir : ∀ {t t' : Str} {args : List Str} {line : Nat} {x : Stmt} {k : Known} {s u : St}, eqNoCase t t' → (.directive, t' :: args) = content x → Alike s u →
      ((execDirective tool.dialect env rec (t :: args) s).1 = .ok () → HoldsIn k (execDirective tool.dialect env rec (t :: args) s).2) →
      Beside (execStmt tool.dialect env depth rec ⟨.directive, t :: args, line⟩) (execStmt tool.dialect env depth rec x) k s u := by
    intro t t' args line x k s u he hx hsu hp
    exact two (.directive he) hx (fun h => by cases h) hsu hp
  induction h with
  | nil k =>
    intro l' hl s t hst hk
    cases List.map_eq_nil_iff.1 hl
    exact ⟨rfl, hst, fun _ => hk⟩
  | any st _ ih =>
    intro l' hl s t hst hk
    obtain ⟨x, l', rfl, hx, hl⟩ := List.map_eq_cons_iff.1 hl
    exact beside_bind (one hx.symm hst fun _ => holds_none _) fun s t hst hk => ih hl s t hst hk
  | plain st hkind _ ih =>
    intro l' hl s t hst hk
    obtain ⟨x, l', rfl, hx, hl⟩ := List.map_eq_cons_iff.1 hl
    have := kept_plain (d := tool.dialect) (env := env) (depth := depth) (rec := rec) st hkind s
    exact beside_bind (one hx.symm hst fun _ => holds_kept hk this.1 this.2) fun s t hst hk => ih hl s t hst hk
  | @instr a k' l c t t' rest line he h1 h2 _ ih =>
    intro l' hl s u hst hk
    obtain ⟨x, l', rfl, hx, hl⟩ := List.map_eq_cons_iff.1 hl
    have := kept_plain (d := tool.dialect) (env := env) (depth := depth) (rec := rec) ⟨.instr, t :: rest, line⟩ (by intro h; cases h) s
    obtain ⟨g1, g2⟩ := hk _ _ rfl
    refine beside_bind (two (.instr he (line := line)) hx.symm (fun _ => ⟨by simpa using g1, ?_⟩) hst fun _ => holds_kept hk this.1 this.2) fun s t hst hk => ih hl s t hst hk
    rintro w r (e | e) <;> cases e <;> rw [tracks_tokens g2] <;> simp [h1, h2]
  | anyDirective he _ ih =>
    intro l' hl s t hst hk
    obtain ⟨x, l', rfl, hx, hl⟩ := List.map_eq_cons_iff.1 hl
    exact beside_bind (dir he hx.symm hst fun _ => holds_none _) fun s t hst hk => ih hl s t hst hk
  | directive he h1 _ ih =>
    intro l' hl s t hst hk
    obtain ⟨x, l', rfl, hx, hl⟩ := List.map_eq_cons_iff.1 hl
    have := kept_directive (rec := rec) (aloof_tool tool env) (deaf_tool tool env) h1
    exact beside_bind (dir he hx.symm hst fun _ => holds_kept hk (this _ s).1 (this _ s).2) fun s t hst hk => ih hl s t hst hk
  | @opens a k' l c t t' args line he h1 _ ih =>
    intro l' hl s u hst hk
    obtain ⟨x, l', rfl, hx, hl⟩ := List.map_eq_cons_iff.1 hl
    obtain ⟨g1, g2⟩ := hk _ _ rfl
    have g1 : s.recording = none := by simpa using g1
    have ht : IsDirectiveToken tool.dialect t "macro" := by unfold isNamed at h1; exact eq_of_beq h1
    refine beside_bind (dir he hx.symm hst ?_) fun s t hst hk => ih hl s t hst hk
    rw [exec_builtin (p := ("macro", directiveMacro tool.dialect)) (by simp [builtinDirective]) (hn _ (by simp)) ht]
    dsimp only
    unfold directiveMacro
    rw [bind_eq, get_eq]
    dsimp only
    rw [g1]
    dsimp only [List.drop]
    cases substituteWithDict args s.defines 0 with
    | nil => intro h; cases h
    | cons name params =>
      intro _ r b e
      cases e
      exact ⟨rfl, g2⟩
  | @closes a k' l c t t' args line he h1 _ ih =>
    intro l' hl s u hst hk
    obtain ⟨x, l', rfl, hx, hl⟩ := List.map_eq_cons_iff.1 hl
    obtain ⟨g1, g2⟩ := hk _ _ rfl
    have ht : IsDirectiveToken tool.dialect t "endmacro" := by unfold isNamed at h1; exact eq_of_beq h1
    refine beside_bind (dir he hx.symm hst ?_) fun s t hst hk => ih hl s t hst hk
    rw [exec_builtin (p := ("endmacro", fun _ => directiveEndMacro)) (by simp [builtinDirective]) (hn _ (by simp)) ht]
    dsimp only
    unfold directiveEndMacro
    rw [bind_eq, get_eq]
    dsimp only
    cases hrec : s.recording with
    | none => intro h; cases h
    | some key =>
      intro _ r b e
      cases e
      exact ⟨rfl, g2⟩
  | @define r a k' l c t t' w v line he h1 _ ih =>
    intro l' hl s u hst hk
    obtain ⟨x, l', rfl, hx, hl⟩ := List.map_eq_cons_iff.1 hl
    obtain ⟨g1, g2⟩ := hk _ _ rfl
    have ht : IsDirectiveToken tool.dialect t "define" := by unfold isNamed at h1; exact eq_of_beq h1
    refine beside_bind (dir he hx.symm hst ?_) fun s t hst hk => ih hl s t hst hk
    rw [exec_builtin (p := ("define", directiveDefine)) (by simp [builtinDirective]) (hn _ (by simp)) ht, tracks_tokens g2]
    intro _ r b e
    cases e
    exact ⟨g1, g2.set _ _⟩

/-- Whole sources end in the same observable state. -/
theorem execStmts_beside (tool : Tool) (hr : ∀ c, Resp (rec c) (rec c)) {k k' : Known} {l l' : List Stmt} (h : RecasedLines tool.dialect k l (l'.map content) k') {s t : St} (hst : Alike s t)
    (hk : HoldsIn k s) : (execStmts tool.dialect env depth rec l s).1 = (execStmts tool.dialect env depth rec l' t).1 ∧
    ((execStmts tool.dialect env depth rec l s).1 = .ok () → SameState (execStmts tool.dialect env depth rec l s).2 (execStmts tool.dialect env depth rec l' t).2 ∧
      HoldsIn k' (execStmts tool.dialect env depth rec l s).2) := by
  obtain ⟨h1, h2, h3⟩ := beside_lines (env := env) (depth := depth) tool hr h rfl s t hst hk
  have e : ∀ (l : List Stmt) (s : St), execStmts tool.dialect env depth rec l s = match forEach l (execStmt tool.dialect env depth rec) s with
      | (.ok _, s') => execStmts tool.dialect env depth rec [] s'
      | (.error e, s') => (.error e, s') := by
    intro l s
    unfold execStmts
    rw [bind_eq]
    rcases forEach l (execStmt tool.dialect env depth rec) s with ⟨_ | _, s'⟩ <;> rfl
  rw [e l s, e l' t]
  rcases hs : forEach l (execStmt tool.dialect env depth rec) s with ⟨r, s1⟩
  rcases ht : forEach l' (execStmt tool.dialect env depth rec) t with ⟨r', t1⟩
  rw [hs, ht] at h1 h2
  rw [hs] at h3
  dsimp only at h1 h2 h3
  subst h1
  cases r with
  | error e => exact ⟨rfl, fun h => by cases h⟩
  | ok u =>
    dsimp only
    have g := execStmts_same_of (d := tool.dialect) (env := env) (depth := depth) (rec := rec) (l := []) (l' := []) (resp_pure ()) h2
    refine ⟨g.1, fun hok => ⟨g.2 hok, ?_⟩⟩
    have ha : Aloof (execStmts tool.dialect env depth rec []) := .bind (.pure ()) fun _ => .bind (aloof_finalFill tool.dialect) fun _ => aloof_closeSection
    have hd : Deaf (execStmts tool.dialect env depth rec []) := .bind (.pure ()) fun _ => .bind (deaf_finalFill tool.dialect) fun _ => deaf_closeSection
    exact holds_kept (h3 rfl) (hd.recording s1) (ha.fields s1).2.2.1

theorem recased_sources (tool : Tool) (depth : Nat) {k : Known} {fs fs' : List Str} (h : RecasedFiles tool.dialect env.text k fs fs') : ∀ {s t : St}, SameState s t → HoldsIn k s →
    (sourcesM tool.dialect env depth fs s).1 = (sourcesM tool.dialect env depth fs' t).1 ∧
      ((sourcesM tool.dialect env depth fs s).1 = .ok () → SameState (sourcesM tool.dialect env depth fs s).2 (sourcesM tool.dialect env depth fs' t).2) := by
  have hc := resp_tool tool env
  have step : ∀ {n : Nat} {c : Str} (u : St), assemble tool.dialect env (n + 1) c u = match tokenize c with
      | .ok l => execStmts tool.dialect env n (assemble tool.dialect env n) l u
      | .error e => (.error e, u) := by
    intro n c u
    rw [assemble, bind_eq, lift_eq]
    cases tokenize c <;> rfl
  have op : ∀ {c : Str} (u : St), (openFile (some c) >>= fun c => assemble tool.dialect env depth c) u = assemble tool.dialect env depth c u := fun _ => rfl
  have after : ∀ {f f' : Str} {gs gs' : List Str} {s t : St} {k' : Known},
      (((openFile (env.text f) >>= fun c => assemble tool.dialect env depth c) s).1 = ((openFile (env.text f') >>= fun c => assemble tool.dialect env depth c) t).1 ∧
      (((openFile (env.text f) >>= fun c => assemble tool.dialect env depth c) s).1 = .ok () →
        SameState ((openFile (env.text f) >>= fun c => assemble tool.dialect env depth c) s).2 ((openFile (env.text f') >>= fun c => assemble tool.dialect env depth c) t).2 ∧
        HoldsIn k' ((openFile (env.text f) >>= fun c => assemble tool.dialect env depth c) s).2)) →
      (∀ {s t : St}, SameState s t → HoldsIn k' s → (sourcesM tool.dialect env depth gs s).1 = (sourcesM tool.dialect env depth gs' t).1 ∧
        ((sourcesM tool.dialect env depth gs s).1 = .ok () → SameState (sourcesM tool.dialect env depth gs s).2 (sourcesM tool.dialect env depth gs' t).2)) →
      (sourcesM tool.dialect env depth (f :: gs) s).1 = (sourcesM tool.dialect env depth (f' :: gs') t).1 ∧
        ((sourcesM tool.dialect env depth (f :: gs) s).1 = .ok () → SameState (sourcesM tool.dialect env depth (f :: gs) s).2 (sourcesM tool.dialect env depth (f' :: gs') t).2) := by
    intro f f' gs gs' s t k' hfile ih
    rw [source_step, source_step]
    rcases ha : (openFile (env.text f) >>= fun c => assemble tool.dialect env depth c) s with ⟨r, s'⟩
    rcases hb : (openFile (env.text f') >>= fun c => assemble tool.dialect env depth c) t with ⟨r', t'⟩
    rw [ha, hb] at hfile
    obtain ⟨e1, e2⟩ := hfile
    dsimp only at e1 e2
    subst e1
    cases r with
    | error e => exact ⟨rfl, fun e => by cases e⟩
    | ok _ => exact ih (e2 rfl).1 (e2 rfl).2
  induction h with
  | nil => intro s t h _; exact ⟨rfl, fun _ => h⟩
  | same f _ ih =>
    intro s t h _
    refine after (k' := none) ?_ ih
    cases hf : env.text f with
    | none => exact ⟨rfl, fun e => by cases e⟩
    | some c =>
      rw [op, op]
      cases depth with
      | zero => exact ⟨rfl, fun e => by cases e⟩
      | succ n =>
        rw [step, step]
        cases tokenize c with
        | error e => exact ⟨rfl, fun e => by cases e⟩
        | ok l =>
          have := execStmts_same_of (l := l) (l' := l) (resp_stmts hc (resp_assemble hc n) n rfl) (alike_of_same h)
          exact ⟨this.1, fun hok => ⟨this.2 hok, holds_none _⟩⟩
  | file h1 h2 h3 h4 h5 _ ih =>
    intro s t h hk
    refine after ?_ ih
    rw [h1, h2, op, op]
    cases depth with
    | zero => exact ⟨rfl, fun e => by cases e⟩
    | succ n =>
      rw [step, step, h3, h4]
      exact execStmts_beside tool (resp_assemble hc n) h5 (alike_of_same h) hk

/-- What is known when a program starts. -/
theorem holds_init (tool : Tool) : HoldsIn (some (false, tool.dialect.defines)) tool.dialect.init := by
  intro r a e
  cases e
  exact ⟨rfl, tracks_refl _⟩

/-- **C92.**  Two programs that differ in the letter case of mnemonics, of names of macros and of names of directives are built alike: the same bytes, or the same error. -/
theorem C92_program (tool : Tool) (depth : Nat) {fs fs' : List Str} (h : RecasedFiles tool.dialect env.text (some (false, tool.dialect.defines)) fs fs') :
    build tool.dialect env depth fs = build tool.dialect env depth fs' :=
  twins_build tool (twins_of_same tool (recased_sources tool depth h (same_refl _) (holds_init tool)))

/-- **C92.**  The lines of macros too: if the two programs, with their definitions and macros written out, differ only in letter case, they are built alike. -/
theorem C92_macros (tool : Tool) {n : Nat} {fs fs' gs gs' : List Str} (h : Inlined tool.dialect env.text (n + 1) tool.dialect.defines tool.dialect.defines [] fs gs)
    (h' : Inlined tool.dialect env.text (n + 1) tool.dialect.defines tool.dialect.defines [] fs' gs') (hg : RecasedFiles tool.dialect env.text (some (false, tool.dialect.defines)) gs gs') :
    build tool.dialect env (n + 2) fs = build tool.dialect env (n + 2) fs' := by
  rw [C99_inline tool h, C99_inline tool h']
  exact C92_program tool (n + 2) hg

variable {m : Machine} {disk : Disk}

/-- **C92.**  Running a program of the package on the two, the programs that write object files included, does the same. -/
theorem C92_run (tool : Tool) (ht : tool ∉ [Tool.gba, .genesis, .psx, .nes]) {fs fs' : List Str}
    (h : RecasedFiles tool.dialect (m.view disk).text (some (false, tool.dialect.defines)) fs fs') (out : Str) : tool.run m (fs ++ [out]) disk = tool.run m (fs' ++ [out]) disk :=
  twins_run tool ht (twins_of_same tool (recased_sources tool _ h (same_refl _) (holds_init tool))) out

/-- **C92.**  The programs that take one source; `args` are the output and what else is given. -/
theorem C92_file_run (tool : Tool) (ht : tool ∈ [Tool.gba, .genesis, .psx, .nes]) {f f' : Str}
    (h : RecasedFiles tool.dialect (m.view disk).text (some (false, tool.dialect.defines)) [f] [f']) (args : List Str) : tool.run m (f :: args) disk = tool.run m (f' :: args) disk :=
  twins_file tool ht (twins_of_same tool (recased_sources tool _ h (same_refl _) (holds_init tool))) args

/-! ## Cases -/

/-- A macro, a definition, calls and instructions, in two spellings. -/
def caseFiles : Env :=
  { text := fun n =>
      if n = "a.s".toList then some ".define v 7\n.macro put x\nlda #x\n.endmacro\nput v\nrts\n".toList
      else some ".Define v 7\n.MACRO put x\nlda #x\n.endMacro\nPut v\nRTS\n".toList }

theorem caseFiles_recased : RecasedFiles mos6502 caseFiles.text (some (false, mos6502.defines)) ["a.s".toList] ["b.s".toList] := by
  refine .file (k' := some (false, ("v".toList, "7".toList) :: mos6502.defines)) (l := [⟨.directive, [".define".toList, "v".toList, "7".toList], 1⟩, ⟨.directive, [".macro".toList, "put".toList, "x".toList], 2⟩,
      ⟨.instr, ["lda".toList, "#x".toList], 3⟩, ⟨.directive, [".endmacro".toList], 4⟩, ⟨.instr, ["put".toList, "v".toList], 5⟩, ⟨.instr, ["rts".toList], 6⟩])
    (l' := [⟨.directive, [".Define".toList, "v".toList, "7".toList], 1⟩, ⟨.directive, [".MACRO".toList, "put".toList, "x".toList], 2⟩,
      ⟨.instr, ["lda".toList, "#x".toList], 3⟩, ⟨.directive, [".endMacro".toList], 4⟩, ⟨.instr, ["Put".toList, "v".toList], 5⟩, ⟨.instr, ["RTS".toList], 6⟩])
    rfl rfl (by decide +kernel) (by decide +kernel) ?_ .nil
  exact .define (by unfold eqNoCase; decide +kernel) (by decide +kernel) (.opens (by unfold eqNoCase; decide +kernel) (by decide +kernel) (.plain _ (by decide)
    (.closes (by unfold eqNoCase; decide +kernel) (by decide +kernel) (.instr (by unfold eqNoCase; decide +kernel) (by decide +kernel) (by decide +kernel)
      (.instr (by unfold eqNoCase; decide +kernel) (by decide +kernel) (by decide +kernel) (.nil _))))))

example : build mos6502 caseFiles 3 ["a.s".toList] = build mos6502 caseFiles 3 ["b.s".toList] := C92_program .mos6502 3 caseFiles_recased

example : build mos6502 caseFiles 3 ["b.s".toList] = .ok [0xA9, 7, 0x60] := by decide +kernel

/-- Two spellings of a macro, and the two of what it stands for. -/
def bodyFiles : Env :=
  { text := fun n =>
      if n = "a.s".toList then some ".macro put x\nlda #x\n.endmacro\nput 7\n".toList
      else if n = "b.s".toList then some ".macro put x\nLDA #x\n.endmacro\nput 7\n".toList
      else if n = "c.s".toList then some "lda #7\n".toList else some "LDA #7\n".toList }

example : build mos6502 bodyFiles 3 ["a.s".toList] = build mos6502 bodyFiles 3 ["b.s".toList] := by
  refine C92_macros .mos6502 (gs := ["c.s".toList]) (gs' := ["d.s".toList])
    (inlined_of (b := mos6502.defines) (ms' := [macroRow "put" ["x"] [["lda", "#x"]]]) rfl rfl (by decide +kernel) .nil)
    (inlined_of (b := mos6502.defines) (ms' := [macroRow "put" ["x"] [["LDA", "#x"]]]) rfl rfl (by decide +kernel) .nil)
    (.file (k' := some (false, mos6502.defines)) (l := [⟨.instr, ["lda".toList, "#7".toList], 1⟩]) (l' := [⟨.instr, ["LDA".toList, "#7".toList], 1⟩]) rfl rfl (by decide +kernel) (by decide +kernel)
      (.instr (by unfold eqNoCase; decide +kernel) (by decide +kernel) (by decide +kernel) (.nil _)) .nil)

example : build mos6502 bodyFiles 3 ["b.s".toList] = .ok [0xA9, 7] := by decide +kernel

end Necro
