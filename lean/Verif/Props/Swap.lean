import Verif.Spec.Swap
import Verif.Props.Restate
import Verif.Props.Mos6502
/-!
# C104: instructions are their bytes
-/

namespace Necro

open Spec
open M (throw get modify lift forEach times)

variable {env : Env} {depth : Nat} {rec : Str → M Unit}

/-- There are no macros, and the definitions are those of the table. -/
structure Bare (a : List (Str × Str)) (s : St) : Prop where
  recording : s.recording = none
  macros : s.macros = []
  defines : Tracks a s.defines

/-- The second run does what the first does, and `P` holds after a first run that succeeds. -/
structure Abreast (m m' : M Unit) (P : St → Prop) (s t : St) : Prop where
  same : (m s).1 = (m' t).1
  alike : Alike (m s).2 (m' t).2
  post : (m s).1 = .ok () → P (m s).2

theorem abreast_bind {m m' : M Unit} {f f' : Unit → M Unit} {P Q : St → Prop} {s t : St} (h : Abreast m m' P s t) (hf : ∀ s t, Alike s t → P s → Abreast (f ()) (f' ()) Q s t) :
    Abreast (m >>= f) (m' >>= f') Q s t := by
  obtain ⟨h1, h2, h3⟩ := h
  have e1 : (m >>= f) s = match m s with | (.ok x, s') => f x s' | (.error e, s') => (.error e, s') := by rw [bind_eq]; rcases m s with ⟨_ | _, _⟩ <;> rfl
  have e2 : (m' >>= f') t = match m' t with | (.ok x, s') => f' x s' | (.error e, s') => (.error e, s') := by rw [bind_eq]; rcases m' t with ⟨_ | _, _⟩ <;> rfl
  rcases hs : m s with ⟨r, s1⟩
  rcases ht : m' t with ⟨r', t1⟩
  rw [hs, ht] at h1 h2
  rw [hs] at h3 e1
  rw [ht] at e2
  dsimp only at h1 h2 h3
  subst h1
  cases r with
  | error e => exact ⟨by rw [e1, e2], by rw [e1, e2]; exact h2, by rw [e1]; intro h; cases h⟩
  | ok u =>
    have := hf s1 t1 h2 (h3 rfl)
    exact ⟨by rw [e1, e2]; exact this.same, by rw [e1, e2]; exact this.alike, by rw [e1]; exact this.post⟩

theorem abreast_append {f : Stmt → M Unit} {P Q : St → Prop} {l1 l2 l1' l2' : List Stmt} {s t : St} (h : Abreast (forEach l1 f) (forEach l1' f) P s t)
    (hf : ∀ s t, Alike s t → P s → Abreast (forEach l2 f) (forEach l2' f) Q s t) : Abreast (forEach (l1 ++ l2) f) (forEach (l1' ++ l2') f) Q s t := by
  have e : ∀ (a b : List Stmt) (s : St), forEach (a ++ b) f s = (forEach a f >>= fun _ => forEach b f) s := by
    intro a b s
    rw [forEach_append, bind_eq]
    rcases forEach a f s with ⟨_ | _, s'⟩ <;> rfl
  have := abreast_bind (f := fun _ => forEach l2 f) (f' := fun _ => forEach l2' f) h hf
  exact ⟨by rw [e, e]; exact this.same, by rw [e, e]; exact this.alike, by rw [e]; exact this.post⟩

def SameMacroTable (s s' : St) : Prop := s'.macros = s.macros

theorem rel_sameMacroTable : DataRel SameMacroTable where
  refl := fun _ => rfl
  trans := fun h1 h2 => by unfold SameMacroTable at *; rw [h2, h1]
  append := fun _ _ => rfl
  reloc := fun _ _ => rfl

/-- Directives other than those for macros and included files leave the macros alone. -/
theorem macros_directive {d : Dialect} (hc : CustomAloof d env) {t : Str} (h1 : ∀ w ∈ ["macro", "endmacro", "include", "define"], isNamed d t w = false) (args : List Str) (s : St) :
    (execDirective d env rec (t :: args) s).2.macros = s.macros := by
  have one : ∀ {m : M Unit}, Aloof m → (m s).2.macros = s.macros := fun h1 => (h1.fields s).2.2.2
  unfold execDirective
  rw [bind_eq, get_eq]
  simp only [substitute_cons]
  cases hl : lookupDirective d env rec (d.key (t.drop 1)) with
  | none => rfl
  | some f =>
    dsimp only
    unfold lookupDirective at hl
    cases hg : d.directives env (d.key (t.drop 1)) with
    | some q => rw [hg] at hl; cases hl; exact one (hc _ _ hg _)
    | none =>
      rw [hg] at hl
      obtain ⟨p, hp, he⟩ := List.mem_map.1 (mem_of_dget hl)
      have hkey : d.key p.1.toList = d.key (t.drop 1) := congrArg Prod.fst he
      have hv : p.2 = f := congrArg Prod.snd he
      subst hv
      have hne : ∀ w ∈ ["macro", "endmacro", "include", "define"], p.1 ≠ w := by
        rintro w hw rfl
        have := h1 _ hw
        unfold isNamed at this
        rw [← hkey] at this
        simp at this
      rcases deaf_cases hp with h | rfl | rfl | rfl | rfl | rfl | rfl | rfl
      · exact one (aloof_builtin d env p (aloof_of_deaf h) _)
      · exact absurd rfl (hne "macro" (by simp))
      · exact absurd rfl (hne "endmacro" (by simp))
      · exact one (aloof_section d _)
      · exact absurd rfl (hne "include" (by simp))
      · exact keeps_directiveLog rel_sameMacroTable (fun _ _ => rfl) _ s
      · exact keeps_directiveExport rel_sameMacroTable (fun _ _ _ => rfl) _ s
      · exact absurd rfl (hne "define" (by simp))

theorem bare_advanced {a : List (Str × Str)} {s : St} (h : Bare a s) (B : Bytes) : Bare a (advanced B s) := ⟨h.recording, h.macros, h.defines⟩

/-- Such lines add their bytes to the output and do nothing else. -/
theorem gives_exact {d : Dialect} (hd : PlainData d env) {a : List (Str × Str)} {k : List (Kind × List Str)} {B : Bytes} (h : GivesBytes d a k B) :
    ∀ {l : List Stmt}, l.map content = k → ∀ s, Bare a s → forEach l (execStmt d env (depth + 1) rec) s = (.ok (), advanced B s) := by
  induction h with
  | nil =>
    intro l hl s _
    cases List.map_eq_nil_iff.1 hl
    rw [forEach_nil, advanced_nil]
  | @data p k A B size hp hi _ ih =>
    intro l hl s hs
    obtain ⟨⟨kind, tokens, line⟩, l, rfl, hx, hl'⟩ := List.map_eq_cons_iff.1 hl
    cases hx
    have e := lines_exact (depth := depth + 1) (rec := rec) hd (.cons size hp hi .nil) (l := [⟨.directive, p.token :: p.items, line⟩]) rfl s hs.defines
    rw [List.append_nil] at e
    rw [show (⟨.directive, p.token :: p.items, line⟩ :: l : List Stmt) = [⟨.directive, p.token :: p.items, line⟩] ++ l from rfl, forEach_append, e]
    dsimp only
    rw [ih hl' (advanced A s) (bare_advanced hs A), advanced_append]
  | @instr ts t rest k A B ht he _ ih =>
    intro l hl s hs
    obtain ⟨⟨kind, tokens, line⟩, l, rfl, hx, hl'⟩ := List.map_eq_cons_iff.1 hl
    cases hx
    have hsub : tokens.map (subToken s.defines) = t :: rest := by
      have := tracks_tokens hs.defines tokens
      rw [ht] at this
      simpa [substituteWithDict] using this
    have hst := C100_instruction (d := d) (env := env) (depth := depth) (rec := rec) (s := s) (line := line) (B := A) hs.recording hsub (by rw [hs.macros]; rfl) (by
      cases he ⟨0, s.labels, d.sy, s.bitsMode⟩ rfl with
      | fixed hf hr => exact .inl ⟨hf, hr⟩
      | handler hf _ =>
        refine .inr ⟨_, hf, fun pc => ?_⟩
        cases he ⟨pc, s.labels, d.sy, s.bitsMode⟩ rfl with
        | fixed hf' _ => rw [hf] at hf'; cases hf'
        | handler hf' h2 => rw [hf] at hf'; cases hf'; exact h2)
    rw [forEach_cons, hst s rfl]
    dsimp only
    rw [ih hl' (advanced A s) (bare_advanced hs A), advanced_append]

theorem bare_instr {d : Dialect} {a : List (Str × Str)} {t : Str} {ts : List Str} {line : Nat} {s : St} (hs : Bare a s) : Bare a (execStmt d env (depth + 1) rec ⟨.instr, t :: ts, line⟩ s).2 := by
  have e : execStmt d env (depth + 1) rec ⟨.instr, t :: ts, line⟩ s = execInstr d (depth + 1) none ⟨.instr, t :: ts, line⟩ s := rfl
  rw [e]
  refine ⟨recording_execInstr _ _ _ hs.recording, ?_, by rw [defines_execInstr]; exact hs.defines⟩
  have ht : substituteWithDict (t :: ts) s.defines 0 = subToken s.defines t :: ts.map (subToken s.defines) := by simp [substituteWithDict]
  rw [plain_eq depth none ⟨.instr, t :: ts, line⟩ s hs.recording ht (by rw [hs.macros]; rfl), ((aloof_plain d _ _).fields _).2.2.2]
  exact hs.macros

theorem swapped_lines (tool : Tool) (hr : ∀ c, Resp (rec c) (rec c)) {a b : List (Str × Str)} {l : List Stmt} {k : List (Kind × List Str)} (h : SwappedLines tool.dialect a l k b) :
    ∀ {l' : List Stmt}, l'.map content = k → ∀ s t, Alike s t → Bare a s →
      Abreast (forEach l (execStmt tool.dialect env (depth + 1) rec)) (forEach l' (execStmt tool.dialect env (depth + 1) rec)) (Bare b) s t := by
  have hc := resp_tool tool env
  have hn : tool.dialect.directives env (tool.dialect.key "define".toList) = none := tool_noOwn tool env "define" (by simp)
  have one : ∀ {st x : Stmt} {P Q : St → Prop} {l l' : List Stmt} {s t : St}, content st = content x → Alike s t →
      ((execStmt tool.dialect env (depth + 1) rec st s).1 = .ok () → P (execStmt tool.dialect env (depth + 1) rec st s).2) →
      (∀ s t, Alike s t → P s → Abreast (forEach l (execStmt tool.dialect env (depth + 1) rec)) (forEach l' (execStmt tool.dialect env (depth + 1) rec)) Q s t) →
      Abreast (forEach (st :: l) (execStmt tool.dialect env (depth + 1) rec)) (forEach (x :: l') (execStmt tool.dialect env (depth + 1) rec)) Q s t := by
    intro st x P Q l l' s t e hst hp hf
    have := (resp_execStmt hc hr (depth + 1) e).eq s t hst
    exact abreast_bind (m := execStmt tool.dialect env (depth + 1) rec st) (m' := execStmt tool.dialect env (depth + 1) rec x)
      (f := fun _ => forEach l (execStmt tool.dialect env (depth + 1) rec)) (f' := fun _ => forEach l' (execStmt tool.dialect env (depth + 1) rec)) ⟨this.1, this.2, hp⟩ hf
  induction h with
  | nil a =>
    intro l' hl s t hst hs
    cases List.map_eq_nil_iff.1 hl
    exact ⟨rfl, hst, fun _ => hs⟩
  | @label a b l k ts line _ ih =>
    intro l' hl s t hst hs
    obtain ⟨x, l', rfl, hx, hl⟩ := List.map_eq_cons_iff.1 hl
    refine one (P := Bare a) hx.symm hst (fun _ => ?_) fun s t hst hs => ih hl s t hst hs
    have g := (aloof_execLabel tool.dialect ts).fields s
    exact ⟨(label_recording tool.dialect ts s).trans hs.recording, g.2.2.2.trans hs.macros, by rw [show (execStmt tool.dialect env (depth + 1) rec ⟨.label, ts, line⟩ s).2.defines = s.defines from g.2.2.1]; exact hs.defines⟩
  | @instr a b l k t ts line _ ih =>
    intro l' hl s u hst hs
    obtain ⟨x, l', rfl, hx, hl⟩ := List.map_eq_cons_iff.1 hl
    exact one (P := Bare a) hx.symm hst (fun _ => bare_instr hs) fun s t hst hs => ih hl s t hst hs
  | @directive a b l k t args line h1 _ ih =>
    intro l' hl s u hst hs
    obtain ⟨x, l', rfl, hx, hl⟩ := List.map_eq_cons_iff.1 hl
    have g := kept_directive (rec := rec) (aloof_tool tool env) (deaf_tool tool env) h1 args s
    have g' := macros_directive (rec := rec) (aloof_tool tool env) h1 args s
    exact one (P := Bare a) hx.symm hst (fun _ => ⟨g.1.trans hs.recording, g'.trans hs.macros, by
      rw [show (execStmt tool.dialect env (depth + 1) rec ⟨.directive, t :: args, line⟩ s).2.defines = s.defines from g.2]; exact hs.defines⟩) fun s t hst hs => ih hl s t hst hs
  | @define a b l k t w v line h1 _ ih =>
    intro l' hl s u hst hs
    obtain ⟨x, l', rfl, hx, hl⟩ := List.map_eq_cons_iff.1 hl
    have ht : IsDirectiveToken tool.dialect t "define" := by unfold isNamed at h1; exact eq_of_beq h1
    refine one (P := Bare ((replaced a w, replaced a v) :: a)) hx.symm hst ?_ fun s t hst hs => ih hl s t hst hs
    rw [show execStmt tool.dialect env (depth + 1) rec ⟨.directive, [t, w, v], line⟩ s = execDirective tool.dialect env rec [t, w, v] s from rfl,
      exec_builtin (p := ("define", directiveDefine)) (by simp [builtinDirective]) hn ht, tracks_tokens hs.defines]
    exact fun _ => ⟨hs.recording, hs.macros, hs.defines.set _ _⟩
  | @swap a b l k B x y h1 h2 _ ih =>
    intro l' hl s t hst hs
    obtain ⟨la, lb, rfl, ha, hb⟩ := List.map_eq_append_iff.1 hl
    obtain ⟨p, q, rfl, hm, -⟩ := id hst
    have e1 := gives_exact (depth := depth) (rec := rec) (tool_plainData tool env) h1 rfl s hs
    have hbt : Bare a (put p q s) := ⟨hs.recording, ?_, hs.defines⟩
    · have e2 := gives_exact (depth := depth) (rec := rec) (tool_plainData tool env) h2 ha (put p q s) hbt
      refine abreast_append (P := Bare a) ⟨by rw [e1, e2], by rw [e1, e2]; exact alike_advanced hst B, fun _ => ?_⟩ fun s t hst hs => ih hb s t hst hs
      rw [e1]
      exact bare_advanced hs B
    · rw [hs.macros] at hm
      exact List.map_eq_nil_iff.1 hm.symm

/-- Whole sources end in the same observable state. -/
theorem execStmts_swapped (tool : Tool) (hr : ∀ c, Resp (rec c) (rec c)) {a b : List (Str × Str)} {l l' : List Stmt} (h : SwappedLines tool.dialect a l (l'.map content) b) {s t : St} (hst : Alike s t)
    (hs : Bare a s) : (execStmts tool.dialect env (depth + 1) rec l s).1 = (execStmts tool.dialect env (depth + 1) rec l' t).1 ∧
    ((execStmts tool.dialect env (depth + 1) rec l s).1 = .ok () → SameState (execStmts tool.dialect env (depth + 1) rec l s).2 (execStmts tool.dialect env (depth + 1) rec l' t).2 ∧
      Bare b (execStmts tool.dialect env (depth + 1) rec l s).2) := by
  obtain ⟨h1, h2, h3⟩ := swapped_lines (env := env) (depth := depth) tool hr h rfl s t hst hs
  have e : ∀ (l : List Stmt) (s : St), execStmts tool.dialect env (depth + 1) rec l s = match forEach l (execStmt tool.dialect env (depth + 1) rec) s with
      | (.ok _, s') => execStmts tool.dialect env (depth + 1) rec [] s'
      | (.error e, s') => (.error e, s') := by
    intro l s
    unfold execStmts
    rw [bind_eq]
    rcases forEach l (execStmt tool.dialect env (depth + 1) rec) s with ⟨_ | _, s'⟩ <;> rfl
  rw [e l s, e l' t]
  rcases hs1 : forEach l (execStmt tool.dialect env (depth + 1) rec) s with ⟨r, s1⟩
  rcases ht1 : forEach l' (execStmt tool.dialect env (depth + 1) rec) t with ⟨r', t1⟩
  rw [hs1, ht1] at h1 h2
  rw [hs1] at h3
  dsimp only at h1 h2 h3
  subst h1
  cases r with
  | error e => exact ⟨rfl, fun h => by cases h⟩
  | ok u =>
    dsimp only
    have g := execStmts_same_of (d := tool.dialect) (env := env) (depth := depth + 1) (rec := rec) (l := []) (l' := []) (resp_pure ()) h2
    refine ⟨g.1, fun hok => ⟨g.2 hok, ?_⟩⟩
    have ha : Aloof (execStmts tool.dialect env (depth + 1) rec []) := .bind (.pure ()) fun _ => .bind (aloof_finalFill tool.dialect) fun _ => aloof_closeSection
    have hd : Deaf (execStmts tool.dialect env (depth + 1) rec []) := .bind (.pure ()) fun _ => .bind (deaf_finalFill tool.dialect) fun _ => deaf_closeSection
    obtain ⟨-, -, g3, g4⟩ := ha.fields s1
    have hb := h3 rfl
    exact ⟨(hd.recording s1).trans hb.recording, g4.trans hb.macros, by rw [g3]; exact hb.defines⟩

theorem swapped_sources (tool : Tool) (n : Nat) {a : List (Str × Str)} {fs fs' : List Str} (h : SwappedFiles tool.dialect env.text a fs fs') : ∀ {s t : St}, SameState s t → Bare a s →
    (sourcesM tool.dialect env (n + 2) fs s).1 = (sourcesM tool.dialect env (n + 2) fs' t).1 ∧
      ((sourcesM tool.dialect env (n + 2) fs s).1 = .ok () → SameState (sourcesM tool.dialect env (n + 2) fs s).2 (sourcesM tool.dialect env (n + 2) fs' t).2) := by
  have hc := resp_tool tool env
  have run : ∀ {f c : Str} {fs : List Str} {l : List Stmt}, env.text f = some c → tokenize c = .ok l → ∀ s, sourcesM tool.dialect env (n + 2) (f :: fs) s =
      match execStmts tool.dialect env (n + 1) (assemble tool.dialect env (n + 1)) l s with
      | (.ok _, s') => sourcesM tool.dialect env (n + 2) fs s'
      | (.error e, s') => (.error e, s') := by
    intro f c fs l h1 h2 s
    have : (openFile (some c) >>= fun c => assemble tool.dialect env (n + 2) c) s = execStmts tool.dialect env (n + 1) (assemble tool.dialect env (n + 1)) l s := by
      show assemble tool.dialect env (n + 2) c s = _
      rw [assemble, bind_eq, lift_eq, h2]
    rw [source_step, h1, this]
    rcases execStmts tool.dialect env (n + 1) (assemble tool.dialect env (n + 1)) l s with ⟨_ | _, _⟩ <;> rfl
  induction h with
  | nil => intro s t h _; exact ⟨rfl, fun _ => h⟩
  | @file a b fs fs' f f' c c' l l' h1 h2 h3 h4 h5 _ ih =>
    intro s t h hs
    have hx := execStmts_swapped (env := env) (depth := n) tool (resp_assemble hc (n + 1)) h5 (alike_of_same h) hs
    rw [run h1 h3, run h2 h4]
    rcases ha : execStmts tool.dialect env (n + 1) (assemble tool.dialect env (n + 1)) l s with ⟨r, s'⟩
    rcases hb : execStmts tool.dialect env (n + 1) (assemble tool.dialect env (n + 1)) l' t with ⟨r', t'⟩
    rw [ha, hb] at hx
    obtain ⟨e1, e2⟩ := hx
    dsimp only at e1 e2
    subst e1
    cases r with
    | error e => exact ⟨rfl, fun e => by cases e⟩
    | ok _ => exact ih (e2 rfl).1 (e2 rfl).2

theorem bare_init (tool : Tool) : Bare tool.dialect.defines tool.dialect.init := ⟨rfl, rfl, tracks_refl _⟩

/-- **C104.**  Lines may be replaced by others that stand for the same bytes, instructions by data for example: the same output, or the same error. -/
theorem C104_swapped (tool : Tool) (n : Nat) {fs fs' : List Str} (h : SwappedFiles tool.dialect env.text tool.dialect.defines fs fs') :
    build tool.dialect env (n + 2) fs = build tool.dialect env (n + 2) fs' :=
  twins_build tool (twins_of_same tool (swapped_sources tool n h (same_refl _) (bare_init tool)))

/-- **C104.**  Programs with macros: if this is so of the two programs with their definitions and macros written out, they are built alike. -/
theorem C104_macros (tool : Tool) {n : Nat} {fs fs' gs gs' : List Str} (h : Inlined tool.dialect env.text (n + 1) tool.dialect.defines tool.dialect.defines [] fs gs)
    (h' : Inlined tool.dialect env.text (n + 1) tool.dialect.defines tool.dialect.defines [] fs' gs') (hg : SwappedFiles tool.dialect env.text tool.dialect.defines gs gs') :
    build tool.dialect env (n + 2) fs = build tool.dialect env (n + 2) fs' := by
  rw [C99_inline tool h, C99_inline tool h']
  exact C104_swapped tool n hg

variable {m : Machine} {disk : Disk}

/-- **C104.**  Running a program of the package on the two, the programs that write object files included, does the same. -/
theorem C104_run (tool : Tool) (ht : tool ∉ [Tool.gba, .genesis, .psx, .nes]) {fs fs' : List Str} (hm : 2 ≤ m.depth)
    (h : SwappedFiles tool.dialect (m.view disk).text tool.dialect.defines fs fs') (out : Str) : tool.run m (fs ++ [out]) disk = tool.run m (fs' ++ [out]) disk := by
  obtain ⟨n, hn⟩ : ∃ n, m.depth = n + 2 := ⟨m.depth - 2, by omega⟩
  refine twins_run tool ht ?_ out
  rw [hn]
  exact twins_of_same tool (swapped_sources tool n h (same_refl _) (bare_init tool))

/-- **C104.**  The programs that take one source; `args` are the output and what else is given. -/
theorem C104_file_run (tool : Tool) (ht : tool ∈ [Tool.gba, .genesis, .psx, .nes]) {f f' : Str} (hm : 2 ≤ m.depth)
    (h : SwappedFiles tool.dialect (m.view disk).text tool.dialect.defines [f] [f']) (args : List Str) : tool.run m (f :: args) disk = tool.run m (f' :: args) disk := by
  obtain ⟨n, hn⟩ : ∃ n, m.depth = n + 2 := ⟨m.depth - 2, by omega⟩
  refine twins_file tool ht ?_ args
  rw [hn]
  exact twins_of_same tool (swapped_sources tool n h (same_refl _) (bare_init tool))

/-! ## Cases -/

/-- An instruction without operand and one with a number, with a definition in it, and their bytes; the other lines refer to labels. -/
def swapFiles : Env :=
  { text := fun n =>
      if n = "a.s".toList then some ".define v 258\nmain:\ninx\nlda #16\njmp main\n".toList
      else some ".define v 258\nmain:\n.db 232 $a9\n.db 16\njmp main\n".toList }

theorem emits_inx (c : Ctx) : Emits mos6502 c "inx".toList [] [0xE8] [] := .fixed (by rfl) rfl

theorem emits_lda (c : Ctx) (hc : c.sy = mos6502.sy) : Emits mos6502 c "lda".toList ["#16".toList] [0xA9, 16] [] :=
  C50_immediate c "lda".toList "16".toList 0xA9 "LDA" 16 (by decide) (by decide +kernel) (by decide) (by decide) (by
    rw [hc]
    have := (C14_round_trip mos6502.sy (by decide +kernel) c.labels 16 false "$".toList 16 8 (by decide) (by decide) (.hex (by decide +kernel))).2
    rw [show numeral 10 16 = "16".toList by decide +kernel] at this
    exact this)

theorem swapFiles_swapped : SwappedFiles mos6502 swapFiles.text mos6502.defines ["a.s".toList] ["b.s".toList] := by
  refine .file (b := ("v".toList, "258".toList) :: mos6502.defines) (l := [⟨.directive, [".define".toList, "v".toList, "258".toList], 1⟩, ⟨.label, ["main".toList], 2⟩,
      ⟨.instr, ["inx".toList], 3⟩, ⟨.instr, ["lda".toList, "#16".toList], 4⟩, ⟨.instr, ["jmp".toList, "main".toList], 5⟩])
    (l' := [⟨.directive, [".define".toList, "v".toList, "258".toList], 1⟩, ⟨.label, ["main".toList], 2⟩,
      ⟨.directive, [".db".toList, "232".toList, "$a9".toList], 3⟩, ⟨.directive, [".db".toList, "16".toList], 4⟩, ⟨.instr, ["jmp".toList, "main".toList], 5⟩])
    rfl rfl (by decide +kernel) (by decide +kernel) ?_ .nil
  refine .define (by decide +kernel) (.label (.swap (B := [0xE8, 0xA9, 16]) [⟨.instr, ["inx".toList], 3⟩, ⟨.instr, ["lda".toList, "#16".toList], 4⟩]
    [(.directive, [".db".toList, "232".toList, "$a9".toList]), (.directive, [".db".toList, "16".toList])] ?_ ?_ (.instr (.nil _))))
  · refine .instr (A := [0xE8]) (B := [0xA9, 16]) (t := "inx".toList) (rest := []) (by decide +kernel) (fun c _ => emits_inx c) (.instr (A := [0xA9, 16]) (B := []) (t := "lda".toList) (rest := ["#16".toList])
      (by decide +kernel) emits_lda .nil)
  · refine .data (p := ⟨".db".toList, ["232".toList, "$a9".toList]⟩) (A := [0xE8, 0xA9]) (B := [16]) 1 ⟨"db", by simp [dataSizes], by unfold IsDirectiveToken; decide +kernel⟩ ?_
      (.data (p := ⟨".db".toList, ["16".toList]⟩) (A := [16]) (B := []) 1 ⟨"db", by simp [dataSizes], by unfold IsDirectiveToken; decide +kernel⟩ ?_ .nil)
    · show ItemsFor mos6502 1 (["232".toList, "$a9".toList].map (replaced ((replaced mos6502.defines "v".toList, replaced mos6502.defines "258".toList) :: mos6502.defines))) _
      rw [show ["232".toList, "$a9".toList].map (replaced ((replaced mos6502.defines "v".toList, replaced mos6502.defines "258".toList) :: mos6502.defines)) = ["232".toList, "$a9".toList] by decide +kernel]
      exact .cons (out := [0xE8]) (B := [0xA9]) (dec6502 (size := 1) (out := [0xE8]) (x := "232".toList) (by decide) rfl (by decide +kernel) (by unfold Quoted; decide +kernel) (by decide) (by decide +kernel))
        (.cons (out := [0xA9]) (B := []) (hex6502 (size := 1) (out := [0xA9]) (x := "$a9".toList) (by decide) rfl (by decide +kernel) (by unfold Quoted; decide +kernel) (by decide) (by decide +kernel)) .nil)
    · show ItemsFor mos6502 1 (["16".toList].map (replaced ((replaced mos6502.defines "v".toList, replaced mos6502.defines "258".toList) :: mos6502.defines))) _
      rw [show ["16".toList].map (replaced ((replaced mos6502.defines "v".toList, replaced mos6502.defines "258".toList) :: mos6502.defines)) = ["16".toList] by decide +kernel]
      exact .cons (out := [16]) (B := []) (dec6502 (size := 1) (out := [16]) (x := "16".toList) (by decide) rfl (by decide +kernel) (by unfold Quoted; decide +kernel) (by decide) (by decide +kernel)) .nil

example : build mos6502 swapFiles 3 ["a.s".toList] = build mos6502 swapFiles 3 ["b.s".toList] := C104_swapped .mos6502 1 swapFiles_swapped

example : build mos6502 swapFiles 3 ["b.s".toList] = .ok [0xE8, 0xA9, 16, 0x4C, 0, 0] := by decide +kernel

end Necro
