import Verif.Lemmas.Keeps
import Verif.Model.Programs
import Verif.Spec.Whole
import Verif.Props.Compose
import Verif.Props.Whole
/-!
# C91: the recursion limit decides whether a program is assembled, not to what
-/

namespace Necro
open Spec
open M (throw get modify lift forEach times)

/-- Unless `m` runs into the recursion limit, `m'` does the same. -/
def Extends (m m' : M α) : Prop := ∀ s, (m s).1 ≠ .error .recursionError → m' s = m s

namespace Extends

theorem rfl' {m : M α} : Extends m m := fun _ _ => rfl

theorem trans {m1 m2 m3 : M α} (h1 : Extends m1 m2) (h2 : Extends m2 m3) : Extends m1 m3 := fun s h => by
  have e := h1 s h
  rw [← e]
  exact h2 s (by rw [e]; exact h)

theorem bind {m m' : M α} {f f' : α → M β} (h : Extends m m') (hf : ∀ a, Extends (f a) (f' a)) : Extends (m >>= f) (m' >>= f') := by
  intro s hs
  rw [bind_eq] at hs ⊢
  rw [bind_eq]
  cases hm : m s with
  | mk r s1 =>
    cases r with
    | error e =>
      rw [hm] at hs
      have e1 := h s (by rw [hm]; intro he; injection he with he; exact hs (by rw [he]))
      rw [e1, hm]
    | ok a =>
      rw [hm] at hs
      have e1 := h s (by rw [hm]; intro h; cases h)
      rw [e1, hm]
      exact hf a s1 hs

theorem forEach {l : List α} {f f' : α → M Unit} (h : ∀ a, Extends (f a) (f' a)) : Extends (M.forEach l f) (M.forEach l f') := by
  induction l with
  | nil => exact rfl'
  | cons x l ih => exact bind (h x) fun _ => ih

theorem recursion {m : M α} : Extends (throw .recursionError) m := fun _ h => absurd rfl h

end Extends

theorem macroStep_extends {exec exec' : StmtRef → Stmt → M Unit} (h : ∀ r st, Extends (exec r st) (exec' r st)) (key : Str) (ps as : List Str) (i : Nat) :
    Extends (macroStep exec key ps as i) (macroStep exec' key ps as i) := by
  refine .bind .rfl' fun s => ?_
  cases dget s.macros key with
  | none => exact .rfl'
  | some m =>
    dsimp only
    cases m.body[i]? with
    | none => exact .rfl'
    | some st => exact .bind .rfl' fun md => .bind .rfl' fun _ => .bind (h _ _) fun _ => .rfl'

theorem execInstr_extends (d : Dialect) : ∀ n ref st, Extends (execInstr d n ref st) (execInstr d (n + 1) ref st)
  | 0, _, _ => .recursion
  | n + 1, ref, st => by
    unfold execInstr
    refine .bind .rfl' fun s => ?_
    cases s.recording with
    | some key => exact .rfl'
    | none =>
      dsimp only
      refine .bind .rfl' fun _ => ?_
      cases substituteWithDict st.tokens s.defines 0 with
      | nil => exact .rfl'
      | cons t rest =>
        dsimp only
        cases dget s.macros (d.key t) with
        | none => exact .rfl'
        | some m => exact .forEach fun i => macroStep_extends (fun r st => execInstr_extends d n r st) _ _ _ i

/-- Two tables with the same names, of which the second extends the first. -/
def TableExtends (l l' : List (Str × (List Str → M Unit))) : Prop :=
  ∀ key, (dget l key = none ∧ dget l' key = none) ∨ ∃ f f', dget l key = some f ∧ dget l' key = some f' ∧ ∀ ts, Extends (f ts) (f' ts)

theorem table_cons {l l' : List (Str × (List Str → M Unit))} (h : TableExtends l l') (k : Str) {f f' : List Str → M Unit} (hf : ∀ ts, Extends (f ts) (f' ts)) :
    TableExtends ((k, f) :: l) ((k, f') :: l') := by
  intro key
  unfold dget
  by_cases hk : k = key
  · rw [if_pos hk, if_pos hk]; exact .inr ⟨_, _, rfl, rfl, hf⟩
  · rw [if_neg hk, if_neg hk]; exact h key

theorem table_extends_self : ∀ (l : List (Str × (List Str → M Unit))), TableExtends l l
  | [] => fun _ => .inl ⟨rfl, rfl⟩
  | (k, _) :: l => table_cons (table_extends_self l) k fun _ => .rfl'

theorem include_extends (env : Env) {rec rec' : Str → M Unit} (h : ∀ c, Extends (rec c) (rec' c)) (ts : List Str) :
    Extends (directiveInclude env rec ts) (directiveInclude env rec' ts) :=
  .bind .rfl' fun _ => .bind .rfl' fun _ => .bind .rfl' fun _ => h _

theorem builtin_extends (d : Dialect) (env : Env) {rec rec' : Str → M Unit} (h : ∀ c, Extends (rec c) (rec' c)) :
    TableExtends ((builtinDirective d env rec).map fun p => (d.key p.1.toList, p.2)) ((builtinDirective d env rec').map fun p => (d.key p.1.toList, p.2)) := by
  have same : ∀ ts f, Extends ((f : List Str → M Unit) ts) (f ts) := fun _ _ => .rfl'
  unfold builtinDirective
  simp only [List.map_cons, List.map_nil]
  exact table_cons (table_cons (table_cons (table_cons (table_extends_self _) _ fun ts => include_extends env h ts) _ fun _ => .rfl') _ fun _ => .rfl') _ fun _ => .rfl'

theorem execDirective_extends (d : Dialect) (env : Env) {rec rec' : Str → M Unit} (h : ∀ c, Extends (rec c) (rec' c)) (ts : List Str) :
    Extends (execDirective d env rec ts) (execDirective d env rec' ts) := by
  refine .bind .rfl' fun s => ?_
  dsimp only
  cases substituteWithDict ts s.defines 1 with
  | nil => exact .rfl'
  | cons t rest =>
    dsimp only
    unfold lookupDirective
    cases d.directives env (d.key (t.drop 1)) with
    | some f => exact .rfl'
    | none =>
      dsimp only
      rcases builtin_extends d env h (d.key (t.drop 1)) with ⟨h1, h2⟩ | ⟨f, f', h1, h2, h3⟩
      · rw [h1, h2]; exact .rfl'
      · rw [h1, h2]; exact h3 _

theorem assemble_extends (d : Dialect) (env : Env) : ∀ n code, Extends (assemble d env n code) (assemble d env (n + 1) code)
  | 0, _ => .recursion
  | n + 1, code => by
    unfold assemble
    refine .bind .rfl' fun stmts => ?_
    unfold execStmts
    refine .bind (.forEach fun st => ?_) fun _ => .rfl'
    unfold execStmt
    cases st.kind with
    | instr => exact execInstr_extends d n _ _
    | directive => exact execDirective_extends d env (assemble_extends d env n) _
    | label => exact .rfl'

theorem assemble_deeper (d : Dialect) (env : Env) (n k : Nat) (code : Str) : Extends (assemble d env n code) (assemble d env (n + k) code) := by
  induction k with
  | zero => exact .rfl'
  | succ k ih => exact ih.trans (assemble_extends d env _ code)

/-- C91: a source that is assembled, or refused for any reason other than the recursion limit, gives the same with every higher limit. -/
theorem C91_source (d : Dialect) (env : Env) {n m : Nat} (hnm : n ≤ m) (code : Str) (s : St) (h : (assemble d env n code s).1 ≠ .error .recursionError) :
    assemble d env m code s = assemble d env n code s := by
  obtain ⟨k, rfl⟩ := Nat.exists_eq_add_of_le hnm
  exact assemble_deeper d env n k code s h

/-- C91: two limits under which a source is assembled give the same. -/
theorem C91_agree (d : Dialect) (env : Env) (n m : Nat) (code : Str) (s : St) (h1 : (assemble d env n code s).1 ≠ .error .recursionError)
    (h2 : (assemble d env m code s).1 ≠ .error .recursionError) : assemble d env n code s = assemble d env m code s := by
  rcases Nat.le_total n m with h | h
  · exact (C91_source d env h code s h1).symm
  · exact C91_source d env h code s h2

theorem sources_extends (d : Dialect) (env : Env) {n m : Nat} (h : n ≤ m) (names : List Str) :
    Extends (forEach names fun name => do let code ← openFile (env.text name); assemble d env n code)
      (forEach names fun name => do let code ← openFile (env.text name); assemble d env m code) :=
  .forEach fun _ => .bind .rfl' fun code s hs => C91_source d env h code s hs

theorem mainRun_extends (d : Dialect) (env : Env) {n m : Nat} (h : n ≤ m) (names : List Str) : Extends (mainRun d env n names) (mainRun d env m names) :=
  .bind (sources_extends d env h names) fun _ => .rfl'

theorem build_extends (d : Dialect) (env : Env) {n m : Nat} (h : n ≤ m) (names : List Str) (hb : build d env n names ≠ .error .recursionError) :
    build d env m names = build d env n names := by
  unfold build at hb ⊢
  have := mainRun_extends d env h names d.init
  cases hm : mainRun d env n names d.init with
  | mk r s1 =>
    rw [hm] at hb this
    rw [this (fun hr => hb (by cases r <;> simp_all))]

theorem elf_extends (c : ElfCfg) (d : Dialect) (env : Env) {n m : Nat} (h : n ≤ m) (names : List Str) (hb : elfBuild c d env n names ≠ .error .recursionError) :
    elfBuild c d env m names = elfBuild c d env n names := by
  unfold elfBuild at hb ⊢
  have := (Extends.bind (sources_extends d env h names) fun _ => .rfl' (m := link d .elf)) d.init
  generalize (forEach names (fun name => do let code ← openFile (env.text name); assemble d env n code) >>= fun _ => link d .elf : M Unit) = m1 at *
  generalize (forEach names (fun name => do let code ← openFile (env.text name); assemble d env m code) >>= fun _ => link d .elf : M Unit) = m2 at *
  cases hm : m1 d.init with
  | mk r s1 =>
    rw [hm] at hb this
    rw [this (fun hr => hb (by cases r <;> simp_all))]

theorem assemblerMain_extends {make : Env → Nat → List Str → Except Err Bytes}
    (hmake : ∀ env n m names, n ≤ m → make env n names ≠ .error .recursionError → make env m names = make env n names) (m : Machine) {k : Nat} (hk : m.depth ≤ k)
    (args : List Str) (disk : Disk) (h : (assemblerMain make m args disk).1 ≠ .error .recursionError) :
    assemblerMain make { m with depth := k } args disk = assemblerMain make m args disk := by
  unfold assemblerMain at h ⊢
  cases hg : args.getLast? with
  | none => rfl
  | some dest =>
    simp only [hg] at h ⊢
    have := hmake (m.view disk) m.depth k args.dropLast hk
    rw [this (fun hr => by rw [hr] at h; exact h rfl)]
    rfl

theorem runFile_extends (d : Dialect) (fix : M Unit) (m : Machine) {k : Nat} (hk : m.depth ≤ k) (args : List Str) (disk : Disk)
    (h : (runFile d fix m args disk).1 ≠ .error .recursionError) : runFile d fix { m with depth := k } args disk = runFile d fix m args disk := by
  unfold runFile at h ⊢
  cases args with
  | nil => rfl
  | cons a as => exact Extends.bind (mainRun_extends d _ hk [a]) (fun _ => .rfl') d.init h

theorem fileMain_extends (d : Dialect) (fix : M Unit) (file : Bytes → Except Err Bytes) (m : Machine) {k : Nat} (hk : m.depth ≤ k) (args : List Str) (disk : Disk)
    (h : (fileMain d fix file m args disk).1 ≠ .error .recursionError) : fileMain d fix file { m with depth := k } args disk = fileMain d fix file m args disk := by
  unfold fileMain at h ⊢
  have hr := runFile_extends d fix m hk args disk
  cases hm : runFile d fix m args disk with
  | mk r s =>
    rw [hm] at h hr
    rw [hr (fun e => by cases e; exact h rfl)]
    rfl

theorem nes_extends (m : Machine) {k : Nat} (hk : m.depth ≤ k) (args : List Str) (disk : Disk) (h : (nesFiles m args disk).1 ≠ .error .recursionError) :
    nesFiles { m with depth := k } args disk = nesFiles m args disk := by
  unfold nesFiles at h ⊢
  have hr := runFile_extends nes (pure ()) m hk args disk
  cases hm : runFile nes (pure ()) m args disk with
  | mk r s =>
    rw [hm] at h hr
    rw [hr (fun e => by cases e; exact h rfl)]
    rfl

/-- C91: a program that ends without running into the recursion limit does the same to the files, and reports the same, with every higher limit. -/
theorem C91_run (tool : Tool) (m : Machine) {k : Nat} (hk : m.depth ≤ k) (args : List Str) (disk : Disk) (h : (tool.run m args disk).1 ≠ .error .recursionError) :
    tool.run { m with depth := k } args disk = tool.run m args disk := by
  cases tool <;> first
    | exact assemblerMain_extends (fun env n m names hn hb => build_extends _ env hn names hb) m hk args disk h
    | exact assemblerMain_extends (fun env n m names hn hb => elf_extends _ _ env hn names hb) m hk args disk h
    | exact fileMain_extends _ _ _ m hk args disk h
    | exact nes_extends m hk args disk h

/-! ## Sources and macros that use themselves -/

/-- C91: sources of which each begins by including one of them, such as a file that includes itself, are refused with every limit. -/
theorem C91_include_cycle (d : Dialect) (env : Env) (hover : d.directives env (d.key "include".toList) = none) (cyclic : Str → Prop) (s : St)
    (h : ∀ code, cyclic code → ∃ t arg line post next, tokenize code = .ok (⟨.directive, [t, arg], line⟩ :: post) ∧ IsDirectiveToken d t "include" ∧ arg ≠ [] ∧
      substituteWithDict [arg] s.defines 0 = [arg] ∧ env.text (fileName arg) = some next ∧ cyclic next) :
    ∀ n code, cyclic code → assemble d env n code s = (.error .recursionError, s)
  | 0, _, _ => rfl
  | n + 1, code, hc => by
    obtain ⟨t, arg, line, post, next, h1, h2, h3, h4, h5, h6⟩ := h code hc
    have ih := C91_include_cycle d env hover cyclic s h n next h6
    unfold assemble
    rw [bind_eq, h1, lift_eq]
    dsimp only
    unfold execStmts
    rw [bind_eq]
    have hst : forEach (⟨.directive, [t, arg], line⟩ :: post) (execStmt d env n (assemble d env n)) s = (.error .recursionError, s) := by
      show (execStmt d env n (assemble d env n) ⟨.directive, [t, arg], line⟩ >>= fun _ => forEach post (execStmt d env n (assemble d env n))) s = _
      rw [bind_eq, execStmt_directive, exec_builtin (p := ("include", directiveInclude env (assemble d env n))) (by simp [builtinDirective]) hover h2 [arg] s, h4]
      have : directiveInclude env (assemble d env n) [t, arg] s = (.error .recursionError, s) := by
        cases arg with
        | nil => exact absurd rfl h3
        | cons c cs =>
          simp only [directiveInclude, exactlyTwo]
          rw [bind_eq, pure_eq]
          dsimp only
          have hs : stringify (c :: cs) s = (.ok (fileName (c :: cs)), s) := by
            unfold stringify
            rw [bind_eq]
            show (if isQuote c then (Pure.pure (unquote (c :: cs)) : M Str) else Pure.pure (c :: cs)) s = _
            unfold fileName isQuote
            by_cases hq : c = '"' ∨ c = '\''
            · rw [if_pos (by simpa using hq), if_pos (by simpa using hq)]; rfl
            · rw [if_neg (by simpa using hq), if_neg (by simpa using hq)]; rfl
          rw [bind_eq, hs]
          dsimp only
          rw [bind_eq, h5]
          exact ih
      rw [show ("include", directiveInclude env (assemble d env n)).snd [t, arg] s = _ from this]
    rw [hst]

theorem setBody_same {s : St} {key : Str} {m : Macro} {i : Nat} {st : Stmt} (h : dget s.macros key = some m) (hb : m.body[i]? = some st) :
    ∃ s', setBodyTokens key i st.tokens s = (.ok (), s') ∧ s'.recording = s.recording ∧ s'.defines = s.defines ∧ dget s'.macros key = some m := by
  unfold setBodyTokens
  rw [modify_eq, h]
  refine ⟨_, rfl, rfl, rfl, ?_⟩
  dsimp only
  rw [dget_dset_self]
  have : m.body.modify i (fun x => { x with tokens := st.tokens }) = m.body := by
    apply List.ext_getElem?
    intro j
    rw [List.getElem?_modify]
    by_cases hj : i = j
    · subst hj; rw [hb]; simp
    · cases m.body[j]? <;> simp [hj]
  rw [this]

/-- C91: a macro whose first line calls the macro itself is refused with every limit, wherever it is called from. -/
theorem C91_macro_cycle (d : Dialect) {t : Str} {st : Stmt} {body : List Stmt} (hst : st.tokens = [t]) :
    ∀ n ref (call : Stmt) s, call.tokens = [t] → s.recording = none → substituteWithDict [t] s.defines 0 = [t] → dget s.macros (d.key t) = some ⟨[], st :: body⟩ →
      (∀ p, ref = some p → p = (d.key t, 0)) → (execInstr d n ref call s).1 = .error .recursionError
  | 0, _, _, _, _, _, _, _, _ => rfl
  | n + 1, ref, call, s, hcall, hr, hsub, hm, href => by
    have hback : ∃ s', writeBack ref [t] s = (.ok (), s') ∧ s'.recording = s.recording ∧ s'.defines = s.defines ∧ dget s'.macros (d.key t) = some ⟨[], st :: body⟩ := by
      cases ref with
      | none => exact ⟨s, rfl, rfl, rfl, hm⟩
      | some p =>
        cases href p rfl
        have := setBody_same (i := 0) (st := st) hm rfl
        rw [hst] at this
        exact this
    obtain ⟨s1, e1, r1, d1, m1⟩ := hback
    obtain ⟨s2, e2, r2, d2, m2⟩ := setBody_same (i := 0) (st := st) m1 rfl
    have ih := C91_macro_cycle d hst n (some (d.key t, 0)) st s2 hst (by rw [r2, r1, hr]) (by rw [d2, d1, hsub]) m2 (by rintro p ⟨⟩; rfl)
    have hstep : (macroStep (execInstr d n) (d.key t) [] [] 0 s1).1 = .error .recursionError := by
      unfold macroStep
      rw [bind_eq, get_eq]
      dsimp only
      rw [m1]
      dsimp only
      show (((lift (macroDict [] [] []) : M _) >>= fun md => _ : M Unit) s1).1 = _
      rw [bind_eq, lift_eq]
      dsimp only [macroDict]
      rw [C05_empty, bind_eq, e2]
      dsimp only
      rw [bind_eq]
      cases he : execInstr d n (some (d.key t, 0)) st s2 with
      | mk r s3 =>
        rw [he] at ih
        dsimp only at ih
        rw [ih]
    rw [execInstr, bind_eq, get_eq]
    dsimp only
    rw [hr]
    dsimp only
    rw [hcall, hsub, bind_eq, e1]
    dsimp only
    rw [hm]
    dsimp only
    unfold runMacro
    have hrange : List.range (st :: body).length = 0 :: (List.range body.length).map Nat.succ := by
      rw [List.length_cons, List.range_succ_eq_map]
    rw [hrange]
    show ((macroStep (execInstr d n) (d.key t) [] [] 0 >>= fun _ => _ : M Unit) s1).1 = _
    rw [bind_eq]
    cases he : macroStep (execInstr d n) (d.key t) [] [] 0 s1 with
    | mk r s3 =>
      rw [he] at hstep
      dsimp only at hstep
      rw [hstep]

/-! ## Examples -/

/-- Two files that include each other. -/
def exCycle : Env := { text := fun n => if n = "a".toList then some ".include \"b\"\n.db 1\n".toList else if n = "b".toList then some ".include \"a\"\n".toList else none }

example : ∀ n, assemble z80 exCycle n ".include \"b\"\n.db 1\n".toList z80.init = (.error .recursionError, z80.init) := by
  refine fun n => C91_include_cycle z80 exCycle rfl (fun c => c = ".include \"b\"\n.db 1\n".toList ∨ c = ".include \"a\"\n".toList) z80.init ?_ n _ (.inl rfl)
  rintro code (rfl | rfl)
  · exact ⟨".include".toList, "\"b\"".toList, 1, [⟨.directive, [".db".toList, "1".toList], 2⟩], ".include \"a\"\n".toList, by decide +kernel,
      by unfold IsDirectiveToken; decide +kernel, by decide, by decide +kernel, by decide +kernel, .inr rfl⟩
  · exact ⟨".include".toList, "\"a\"".toList, 1, [], ".include \"b\"\n.db 1\n".toList, by decide +kernel,
      by unfold IsDirectiveToken; decide +kernel, by decide, by decide +kernel, by decide +kernel, .inl rfl⟩

/-- The state after recording a macro that calls itself. -/
def exSelf : St := (forEach [⟨.directive, [".macro".toList, "twice".toList], 1⟩, ⟨.instr, ["twice".toList], 2⟩, ⟨.directive, [".endmacro".toList], 3⟩]
  (execStmt z80 {} 2 (assemble z80 {} 2)) z80.init).2

example : ∀ n, (execInstr z80 n none ⟨.instr, ["twice".toList], 4⟩ exSelf).1 = .error .recursionError := fun n =>
  C91_macro_cycle z80 (st := ⟨.instr, ["twice".toList], 2⟩) (body := []) rfl n none _ exSelf rfl (by decide +kernel) (by decide +kernel) (by decide +kernel) (by rintro p ⟨⟩)

/-- Three levels are enough for a program with a macro, and then so is any other number. -/
example : ∀ m, 3 ≤ m → assemble z80 {} m exWholeZ80.toList z80.init = assemble z80 {} 3 exWholeZ80.toList z80.init := fun m hm =>
  C91_source z80 {} hm _ _ (by
    rw [show (assemble z80 {} 3 exWholeZ80.toList z80.init).1 = .ok () by decide +kernel]
    intro h; cases h)

/-- A machine with one file, which a program for the 6502 assembles into another. -/
def exShallow : Machine := { view := fun disk => { text := fun n => (disk n).map fun _ => ".macro twice\nINX\nINX\n.endmacro\ntwice\n".toList }, depth := 3 }
def exShallowDisk : Disk := fun n => if n = "a.asm".toList then some [] else none

example : ∀ k, 3 ≤ k → Tool.run .mos6502 { exShallow with depth := k } ["a.asm".toList, "a.bin".toList] exShallowDisk =
    Tool.run .mos6502 exShallow ["a.asm".toList, "a.bin".toList] exShallowDisk := fun k hk =>
  C91_run .mos6502 exShallow hk _ _ (by
    rw [show (Tool.run .mos6502 exShallow ["a.asm".toList, "a.bin".toList] exShallowDisk).1 = .ok () by decide +kernel]
    intro h; cases h)

example : (Tool.run .mos6502 exShallow ["a.asm".toList, "a.bin".toList] exShallowDisk).2 "a.bin".toList = some [0xE8, 0xE8] := by decide +kernel

/-- With less the macro does not fit. -/
example : (assemble z80 {} 2 exWholeZ80.toList z80.init).1 = .error .recursionError := by decide +kernel

end Necro
