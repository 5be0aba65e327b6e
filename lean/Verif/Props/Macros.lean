import Verif.Lemmas.Macros
/-!
# C29–C33: defines, macros and failing instructions
-/

namespace Necro
open Spec
open M (throw get modify lift forEach times)

/-! ## C29 -/

/-- C29: `.define` binds its first argument to its second and changes nothing else. -/
theorem C29_define (d : Dialect) (env : Env) (rec : Str → M Unit)
    (hc : d.directives env (d.key "define".toList) = none) (t : Str) (ht : IsDirectiveToken d t "define")
    (n v : Str) (s : St) :
    ∃ defs, execDirective d env rec [t, n, v] s = (.ok (), { s with defines := defs }) ∧
      ∀ k, defs.lookup k = if subToken s.defines n = k then some (subToken s.defines v) else s.defines.lookup k := by
  rw [exec_builtin (p := ("define", directiveDefine)) (by simp [builtinDirective]) hc ht]
  refine ⟨dset s.defines (subToken s.defines n) (subToken s.defines v), ?_, ?_⟩
  · simp [substituteWithDict, directiveDefine]; rfl
  · intro k; rw [← dget_eq_lookup, dget_dset, dget_eq_lookup]

/-- C29: a directive receives its arguments after substitution (its name is not substituted). -/
theorem C29_directive (d : Dialect) (env : Env) (rec : Str → M Unit) (t : Str) (args : List Str) (s : St) :
    execDirective d env rec (t :: args) s =
      match lookupDirective d env rec (d.key (t.drop 1)) with
      | none => (.error .unknownDirective, s)
      | some f => f (t :: substituteWithDict args s.defines 0) s := by
  unfold execDirective
  rw [bind_eq, get_eq]
  simp only [substitute_cons]
  cases lookupDirective d env rec (d.key (t.drop 1)) <;> rfl

/-- C29: an instruction handler receives mnemonic and operands after substitution. -/
theorem C29_instruction (d : Dialect) (depth : Nat) (tokens : List Str) (l : Nat) (s : St) (hr : s.recording = none)
    (t : Str) (rest : List Str) (ht : substituteWithDict tokens s.defines 0 = t :: rest)
    (hm : s.macros.lookup (d.key t) = none) (f) (hf : d.instrs (d.key t) = some (.handler f)) :
    execInstr d (depth + 1) none ⟨.instr, tokens, l⟩ s = (runHandler d f (t :: rest) >>= appendBytes) s := by
  rw [execInstr_eq d depth none _ s hr ht]
  rw [← dget_eq_lookup] at hm
  rw [hm, hf]
  rfl

/-- C29: outside macro recording, an instruction statement only matters through its
substituted tokens. -/
theorem C29_only_substituted (d : Dialect) (depth : Nat) (tokens tokens' : List Str) (l l' : Nat) (s : St)
    (hr : s.recording = none) (h : substituteWithDict tokens s.defines 0 = substituteWithDict tokens' s.defines 0) :
    execInstr d depth none ⟨.instr, tokens, l⟩ s = execInstr d depth none ⟨.instr, tokens', l'⟩ s := by
  cases depth with
  | zero => rfl
  | succ depth =>
    rw [execInstr, execInstr, bind_eq, bind_eq, get_eq]
    simp only [hr, h]

/-- C29: a label statement is not substituted. -/
theorem C29_label (d : Dialect) (tokens : List Str) (s : St) (defs : List (Str × Str)) :
    execLabel d tokens { s with defines := defs } =
      ((execLabel d tokens s).1, { (execLabel d tokens s).2 with defines := defs }) := by
  rcases s with ⟨bytes, labels, org, orgEnd, counter, relocs, macros, recording, r1, r2, r3, r4, r5, r6, r7, r8⟩
  simp only [execLabel]
  cases recording with
  | some _ => rfl
  | none =>
    simp only
    cases tokens with
    | nil => rfl
    | cons k r =>
      simp only
      split
      · rfl
      · split
        · rfl
        · cases parseInteger d.sy labels k 64 false with
          | error e => rfl
          | ok v => cases v <;> rfl

/-- C29: `.define N V` followed by `.define N W` does not redefine `N`: it binds `V`. -/
theorem C29_no_redefinition (d : Dialect) (env : Env) (rec : Str → M Unit)
    (hc : d.directives env (d.key "define".toList) = none) (t t' : Str) (ht : IsDirectiveToken d t "define")
    (ht' : IsDirectiveToken d t' "define") (n v w : Str) (s : St) (hnv : n ≠ v)
    (hn : subToken s.defines n = n) (hv : subToken s.defines v = v) :
    ∃ s1 s2, execDirective d env rec [t, n, v] s = (.ok (), s1) ∧ execDirective d env rec [t', n, w] s1 = (.ok (), s2) ∧
      s2.defines.lookup n = some v ∧ s2.defines.lookup v = some (subToken s1.defines w) := by
  obtain ⟨defs, h1, h2⟩ := C29_define d env rec hc t ht n v s
  obtain ⟨defs', h3, h4⟩ := C29_define d env rec hc t' ht' n w { s with defines := defs }
  have hsub : subToken defs n = v := by
    have := h2 n
    rw [hn, if_pos rfl, hv, ← dget_eq_lookup] at this
    unfold subToken; rw [this]
  refine ⟨_, _, h1, h3, ?_, ?_⟩
  · have := h4 n
    simp only [hsub] at this
    rw [this, if_neg (fun e => hnv e.symm), h2 n, hn, if_pos rfl, hv]
  · have := h4 v
    simp only [hsub] at this
    rw [this, if_pos trivial]

/-- `.define X 1`, `.define X 2`, then `.db X 1`: `X` is still 1, and `1` has become 2. -/
example : (assemble mos6502 {} 9 ".define X 1\n.define X 2\n.db X 1".toList mos6502.init).2.bytes = [1, 2] := by
  decide +kernel
/-- The mnemonic is substituted as well; a label of the same name is not. -/
example : (assemble mos6502 {} 9 ".define X NOP\nX: X".toList mos6502.init).2.bytes = [0xEA] ∧
    ((assemble mos6502 {} 9 ".define X NOP\nX: X".toList mos6502.init).2.labels.map Prod.fst) = ["X".toList] := by
  decide +kernel
/-- A name can be rebound through an alias. -/
example : (assemble mos6502 {} 9 ".define A X\n.define X 1\n.define A 2\n.db X".toList mos6502.init).2.bytes = [2] := by
  decide +kernel

/-! ## C30 -/

/-- C30: while a macro is recorded, an instruction statement is stored, unexecuted and
unsubstituted, and nothing else happens. -/
theorem C30_instruction (d : Dialect) (depth : Nat) (ref : StmtRef) (st : Stmt) (s : St) (key : Str) (m : Macro)
    (hr : s.recording = some key) (hm : s.macros.lookup key = some m) :
    ∃ table, execInstr d (depth + 1) ref st s = (.ok (), { s with macros := table }) ∧
      ∀ k, table.lookup k = if key = k then some { m with body := m.body ++ [st] } else s.macros.lookup k := by
  rw [← dget_eq_lookup] at hm
  refine ⟨dset s.macros key { m with body := m.body ++ [st] }, ?_, ?_⟩
  · rw [execInstr, bind_eq, get_eq]
    simp only [hr, recordStmt, hm]
  · intro k; rw [← dget_eq_lookup, dget_dset, dget_eq_lookup]

/-- C30: labels are rejected while a macro is recorded. -/
theorem C30_label (d : Dialect) (tokens : List Str) (s : St) (hr : s.recording ≠ none) :
    execLabel d tokens s = (.error .labelNotAllowedInMacro, s) := by
  unfold execLabel
  cases h : s.recording with
  | none => exact absurd h hr
  | some _ => rfl

/-- C30: `.macro` while a macro is recorded is rejected. -/
theorem C30_nested (d : Dialect) (env : Env) (rec : Str → M Unit)
    (hc : d.directives env (d.key "macro".toList) = none) (t : Str) (ht : IsDirectiveToken d t "macro")
    (args : List Str) (s : St) (hr : s.recording ≠ none) :
    execDirective d env rec (t :: args) s = (.error .unsupportedNestedMacro, s) := by
  rw [exec_builtin (p := ("macro", directiveMacro d)) (by simp [builtinDirective]) hc ht]
  simp only [directiveMacro]
  rw [bind_eq, get_eq]
  cases h : s.recording with
  | none => exact absurd h hr
  | some _ => simp only [h]; rfl

/-- C30: `.endmacro` without `.macro` is rejected. -/
theorem C30_unmatched (d : Dialect) (env : Env) (rec : Str → M Unit)
    (hc : d.directives env (d.key "endmacro".toList) = none) (t : Str) (ht : IsDirectiveToken d t "endmacro")
    (args : List Str) (s : St) (hr : s.recording = none) :
    execDirective d env rec (t :: args) s = (.error .notInMacroRecordingMode, s) := by
  rw [exec_builtin (p := ("endmacro", fun _ => directiveEndMacro)) (by simp [builtinDirective]) hc ht]
  simp only [directiveEndMacro]
  rw [bind_eq, get_eq]
  simp only [hr]; rfl

theorem record_many (d : Dialect) (env : Env) (depth : Nat) (rec : Str → M Unit) (key : Str) (body : List Stmt)
    (hb : ∀ st ∈ body, st.kind = .instr) : ∀ (s : St) (m : Macro), s.recording = some key →
    dget s.macros key = some m →
    forEach body (execStmt d env (depth + 1) rec) s =
      (.ok (), { s with macros := dset s.macros key { m with body := m.body ++ body } }) := by
  induction body with
  | nil =>
    intro s m hr hm
    rw [forEach_nil, List.append_nil, dset_same _ _ _ hm]
  | cons st l ih =>
    intro s m hr hm
    rw [forEach_cons]
    have h1 : execStmt d env (depth + 1) rec st s =
        (.ok (), { s with macros := dset s.macros key { m with body := m.body ++ [st] } }) := by
      unfold execStmt
      rw [hb st (List.mem_cons_self ..)]
      simp only
      rw [execInstr, bind_eq, get_eq]
      simp only [hr, recordStmt, hm]
    rw [h1]
    simp only
    rw [ih (fun x hx => hb x (List.mem_cons_of_mem _ hx)) { s with macros := dset s.macros key { m with body := m.body ++ [st] } }
      { m with body := m.body ++ [st] } hr (dget_dset_self _ _ _)]
    simp only [dset_dset, List.append_assoc, List.singleton_append]

/-- C30: a whole definition.  `.macro name params…`, instruction statements, `.endmacro`: the
macro of that name is exactly the parameters and the statements; nothing else changes. -/
theorem C30_definition (d : Dialect) (env : Env) (depth : Nat) (rec : Str → M Unit)
    (h1 : d.directives env (d.key "macro".toList) = none) (h2 : d.directives env (d.key "endmacro".toList) = none)
    (t t' : Str) (l l' : Nat) (ht : IsDirectiveToken d t "macro") (ht' : IsDirectiveToken d t' "endmacro")
    (args args' : List Str) (name : Str) (params : List Str) (body : List Stmt) (hb : ∀ st ∈ body, st.kind = .instr)
    (s : St) (hr : s.recording = none) (hargs : substituteWithDict args s.defines 0 = name :: params) :
    ∃ table, forEach (⟨.directive, t :: args, l⟩ :: body ++ [⟨.directive, t' :: args', l'⟩])
        (execStmt d env (depth + 1) rec) s = (.ok (), { s with macros := table }) ∧
      ∀ k, table.lookup k = if d.key name = k then some ⟨params, body⟩ else s.macros.lookup k := by
  refine ⟨dset s.macros (d.key name) ⟨params, body⟩, ?_, ?_⟩
  · rw [List.cons_append, forEach_cons, execStmt_directive]
    have e1 := exec_builtin (p := ("macro", directiveMacro d)) (env := env) (rec := rec) (by simp [builtinDirective])
      h1 ht args s
    rw [e1]
    simp only [directiveMacro]
    rw [bind_eq, get_eq]
    simp only [hr, hargs, List.drop_succ_cons, List.drop_zero]
    rw [modify_eq]
    simp only
    rw [forEach_append, record_many d env depth rec (d.key name) body hb _ ⟨params, []⟩ rfl (dget_dset_self _ _ _)]
    simp only [dset_dset, List.nil_append]
    rw [forEach_cons, execStmt_directive]
    have e2 := fun s => exec_builtin (p := ("endmacro", fun _ => directiveEndMacro)) (env := env) (rec := rec)
      (by simp [builtinDirective]) h2 ht' args' s
    rw [e2]
    simp only [directiveEndMacro]
    rw [bind_eq, get_eq]
    simp only
    rw [modify_eq]
    simp only [forEach_nil, hr]
  · intro k; rw [← dget_eq_lookup, dget_dset, dget_eq_lookup]

/-- A directive inside a definition is executed at once: here `.db 7` is emitted when the
macro is defined, and not when it is used. -/
example : (assemble mos6502 {} 9 ".macro M\nNOP\n.db 7\n.endmacro\nM\nM".toList mos6502.init).2.bytes =
    [7, 0xEA, 0xEA] := by decide +kernel

/-! ## C31 -/

/-- The statements a macro invocation stands for. -/
def inlined (m : Macro) (args : List Str) : List Stmt :=
  m.body.map fun st => { st with tokens := substituteWithDict st.tokens (m.args.zip args).reverse 0 }

theorem macro_loop (d : Dialect) (depth : Nat) (key : Str) (hkey : d.instrs key = none) (m : Macro) (args : List Str)
    (md : List (Str × Str)) (hmd : macroDict m.args args [] = .ok md) (l : List Stmt) : ∀ (i : Nat),
    m.body.drop i = l → ∀ (s : St) r h1, s.recording = none → dget s.macros key = some m →
    forEach (l.map fun st => ({ st with tokens := substituteWithDict st.tokens md 0 } : Stmt))
      (execInstr d depth none) (hide key s) = (r, h1) →
    r ≠ .error .unknownInstruction →
    ∃ s1, forEach (List.range' i l.length) (macroStep (execInstr d depth) key m.args args) s = (r, s1) ∧
      hide key s1 = h1 ∧ (r = .ok () → s1.macros = s.macros) := by
  induction l with
  | nil =>
    intro i _ s r h1 hr hm he _
    injection he with e1 e2; subst e1 e2
    exact ⟨s, rfl, rfl, fun _ => rfl⟩
  | cons st l ih =>
    intro i hi s r h1 hr hm he hne
    have hst : m.body[i]? = some st := by
      have := congrArg (fun x => x[0]?) hi
      simpa [List.getElem?_drop] using this
    have hi' : m.body.drop (i + 1) = l := by
      rw [← List.drop_drop, hi]; rfl
    rw [List.map_cons, forEach_cons] at he
    rw [List.length_cons, List.range'_succ]
    rw [forEach_cons, macroStep_eq _ _ _ _ _ _ hm hst hmd]
    generalize hτ : substituteWithDict st.tokens md 0 = τ at he ⊢
    have hh : hide key { s with macros := setTok s.macros key i τ } = hide key s := by
      simp only [hide]; rw [filter_setTok_self]
    cases hx : execInstr d depth none { st with tokens := τ } (hide key s) with
    | mk r0 h0 =>
    rw [hx] at he
    rw [← hh] at hx
    cases r0 with
    | error e =>
      injection he with e1 e2; subst e1 e2
      obtain ⟨s1, h2, h3, h4⟩ := sim_execInstr d key hkey depth none (some (key, i)) _ (.inr ⟨rfl, i, rfl⟩)
        { s with macros := setTok s.macros key i τ } _ _ hr hx hne
      refine ⟨s1, ?_, h3, fun h => by simp at h⟩
      rw [h2]
    | ok v =>
      obtain ⟨s1, h2, h3, h4⟩ := sim_execInstr d key hkey depth none (some (key, i)) _ (.inr ⟨rfl, i, rfl⟩)
        { s with macros := setTok s.macros key i τ } _ _ hr hx (by simp)
      rw [h2]
      simp only
      have htab := execInstr_table d depth _ _ { s with macros := setTok s.macros key i τ } _ _ hr h2
      have hrest : setTok s1.macros key i st.tokens = s.macros := by
        rw [htab]
        simp only [wbTable]
        rw [setTok_setTok, setTok_setTok, setTok_same hm hst]
      simp only [hrest]
      subst h3
      have hk : hide key s1 = hide key { s1 with macros := s.macros } := by
        simp only [hide]
        rw [← hrest, filter_setTok_self]
      rw [hk] at he
      obtain ⟨s2, h5, h6, h7⟩ := ih (i + 1) hi' { s1 with macros := s.macros } r h1 h4 hm he hne
      exact ⟨s2, h5, h6, h7⟩

/-- C31: a macro invocation against its inlined body.  The inlined statements are first run
in the state *without* the macro (`hide`): that they do not stop there at an unknown
instruction says that they never invoke the macro again, directly or through other macros.
Then invoking the macro, and running the inlined statements one by one, raise the same
error or both succeed, leave the same state apart from the macro table, and if they succeed
leave exactly the same state. -/
theorem C31_inline (d : Dialect) (depth : Nat) (st : Stmt) (s : St) (hr : s.recording = none)
    (t : Str) (args : List Str) (ht : substituteWithDict st.tokens s.defines 0 = t :: args)
    (m : Macro) (hm : s.macros.lookup (d.key t) = some m) (hargs : m.args.length ≤ args.length)
    (hi : d.instrs (d.key t) = none)
    (hre : (forEach (inlined m args) (execInstr d depth none) (hide (d.key t) s)).1 ≠ .error .unknownInstruction) :
    let call := execInstr d (depth + 1) none st s
    let inline := forEach (inlined m args) (execInstr d depth none) s
    call.1 = inline.1 ∧ hide (d.key t) call.2 = hide (d.key t) inline.2 ∧ (call.1 = .ok () → call.2 = inline.2) := by
  rw [← dget_eq_lookup] at hm
  obtain ⟨md, hmd⟩ := (macroDict_ok_iff m.args args []).1 hargs
  have hl : ∀ k, dget md k = dget (m.args.zip args).reverse k := fun k => by
    rw [macroDict_lookup _ _ _ _ hmd, List.append_nil, dget_eq_lookup]
  have hin : inlined m args = m.body.map fun st => ({ st with tokens := substituteWithDict st.tokens md 0 } : Stmt) := by
    unfold inlined
    congr 1; funext st
    rw [substitute_congr hl]
  have hcall : execInstr d (depth + 1) none st s =
      forEach (List.range' 0 m.body.length) (macroStep (execInstr d depth) (d.key t) m.args args) s := by
    rw [execInstr_eq d depth none st s hr ht, hm]
    simp only [runMacro, List.drop_succ_cons, List.drop_zero, List.range_eq_range', wbTable]
  cases hh : forEach (inlined m args) (execInstr d depth none) (hide (d.key t) s) with
  | mk r h1 =>
  rw [hh] at hre
  obtain ⟨s2, e2, e3, _⟩ := Sim.forEach (key := d.key t) (l := inlined m args)
    (fun x _ => sim_execInstr d _ hi depth none none x (.inl ⟨rfl, fun k i h => by simp at h⟩)) s r h1 hr hh hre
  rw [hin] at hh
  obtain ⟨s1, e5, e6, e7⟩ := macro_loop d depth (d.key t) hi m args md hmd m.body 0 rfl s r h1 hr hm hh hre
  simp only
  rw [hcall, e5, e2]
  refine ⟨rfl, by rw [e6, e3], fun hok => ?_⟩
  simp only at hok
  refine hide_ext (key := d.key t) (by rw [e6, e3]) ?_
  rw [e7 hok]
  subst hok
  have := forEach_inv (I := fun x => x.recording = none ∧ x.macros = s.macros) (l := inlined m args)
    (f := execInstr d depth none) (fun y _ x x' u hx hs => by
      refine ⟨?_, ?_⟩
      · have hk : SameRecording x (execInstr d depth none y x).2 := keeps_execInstr rel_sameRecording d depth none y x
        rw [hs] at hk
        unfold SameRecording at hk
        rw [hk]; exact hx.1
      · rw [execInstr_table d depth none y x x' u hx.1 hs]; exact hx.2)
  exact (this s s2 () ⟨hr, rfl⟩ e2).2.symm

/-- C31: too few arguments are an error, and nothing changes. -/
theorem C31_missing (d : Dialect) (depth : Nat) (st : Stmt) (s : St) (hr : s.recording = none)
    (t : Str) (args : List Str) (ht : substituteWithDict st.tokens s.defines 0 = t :: args)
    (m : Macro) (hm : s.macros.lookup (d.key t) = some m) (hargs : args.length < m.args.length) (hb : m.body ≠ []) :
    execInstr d (depth + 1) none st s = (.error .indexError, s) := by
  rw [← dget_eq_lookup] at hm
  have hmd := (macroDict_ok_iff m.args args []).2 hargs
  rw [execInstr_eq d depth none st s hr ht, hm]
  simp only [runMacro, List.drop_succ_cons, List.drop_zero, wbTable]
  cases hbody : m.body with
  | nil => exact absurd hbody hb
  | cons x l =>
    rw [List.length_cons, List.range_succ_eq_map, forEach_cons,
      macroStep_missing _ _ _ _ _ _ hm (by rw [hbody]; rfl) hmd]

/-- C31: arguments beyond the parameters are ignored. -/
theorem C31_extra (m : Macro) (args more : List Str) (h : m.args.length ≤ args.length) :
    inlined m (args ++ more) = inlined m args := by
  have : m.args.zip (args ++ more) = m.args.zip args := by
    rw [List.zip_eq_zip_take_min (l₂ := args ++ more), List.zip_eq_zip_take_min (l₂ := args)]
    rw [List.length_append, Nat.min_eq_left (by omega), Nat.min_eq_left h, List.take_append_of_le_length h]
  unfold inlined
  rw [this]

/-- A macro using another one, with two parameters. -/
def macroDemo : Str :=
  ".macro INNER v\nLDA v\n.endmacro\n.macro OUTER a b\nINNER a\nSTA b\n.endmacro\n".toList

/-- The invocation `OUTER #1 $20` after `macroDemo` meets the hypotheses of `C31_inline`. -/
example :
    let s := (assemble mos6502 {} 9 macroDemo mos6502.init).2
    s.recording = none ∧ (dget s.macros (mos6502.key "OUTER".toList)).isSome ∧
    (mos6502.instrs (mos6502.key "OUTER".toList)).isNone ∧
    (∀ m ∈ dget s.macros (mos6502.key "OUTER".toList), m.args.length = 2 ∧ m.body.length = 2 ∧
      (forEach (inlined m ["#1".toList, "$20".toList]) (execInstr mos6502 5 none)
        (hide (mos6502.key "OUTER".toList) s)).1 = .ok () ∧
      (forEach (inlined m ["#1".toList, "$20".toList]) (execInstr mos6502 5 none) s).2.bytes = [0xA9, 1, 0x85, 0x20]) := by
  decide +kernel

/-! ## C32 -/

/-- C32: a successful instruction statement, macro invocations included, leaves the macro
table exactly as it was. -/
theorem C32_success (d : Dialect) (depth : Nat) (st : Stmt) (s s' : St) (hr : s.recording = none)
    (h : execInstr d depth none st s = (.ok (), s')) : s'.macros = s.macros :=
  execInstr_table d depth none st s s' () hr h

/-- Everything about a macro table except the tokens of its body statements. -/
def tableShape (t : List (Str × Macro)) : List (Str × List Str × List (Kind × Nat)) :=
  t.map fun p => (p.1, p.2.args, p.2.body.map fun st => (st.kind, st.line))

def ShapeRel (s s' : St) : Prop := s.recording = none →
  s'.recording = none ∧ tableShape s'.macros = tableShape s.macros

theorem tableShape_dset {t : List (Str × Macro)} {k : Str} {m m' : Macro} (h : dget t k = some m)
    (ha : m'.args = m.args) (hb : (m'.body.map fun st => (st.kind, st.line)) = m.body.map fun st => (st.kind, st.line)) :
    tableShape (dset t k m') = tableShape t := by
  induction t with
  | nil => simp [dget] at h
  | cons p l ih =>
    obtain ⟨a, b⟩ := p
    by_cases hk : a = k
    · subst hk
      simp only [dget, if_pos] at h
      injection h with h; subst h
      simp [dset, tableShape, ha, hb]
    · simp only [dget, if_neg hk] at h
      have := ih h
      simp only [dset, if_neg hk, tableShape, List.map_cons] at this ⊢
      rw [this]

theorem rel_shape : BodyRel ShapeRel where
  refl := fun s h => ⟨h, rfl⟩
  trans := fun h1 h2 h => ⟨(h2 (h1 h).1).1, by rw [(h2 (h1 h).1).2, (h1 h).2]⟩
  append := fun s b h => ⟨h, rfl⟩
  reloc := fun s r h => ⟨h, rfl⟩
  tok := fun s key idx t h => by
    rw [setBodyTokens_eq]
    refine ⟨h, ?_⟩
    simp only [setTok]
    cases hm : dget s.macros key with
    | none => rfl
    | some m =>
      refine tableShape_dset hm rfl ?_
      apply List.ext_getElem?
      intro j
      simp only [List.getElem?_map, List.getElem?_modify]
      cases m.body[j]? with
      | none => rfl
      | some st => simp only [Option.map_some]; split <;> rfl
  record := fun s key st h hn => by rw [hn] at h; simp at h

/-- C32: whatever the outcome, no macro appears or disappears, and none changes its
parameters or the number of its statements. -/
theorem C32_shape (d : Dialect) (depth : Nat) (st : Stmt) (s : St) (hr : s.recording = none) :
    tableShape (execInstr d depth none st s).2.macros = tableShape s.macros :=
  (body_execInstr rel_shape d depth none st s hr).2

/-- A statement that does not invoke a macro changes at most its own tokens, and fails or
succeeds. -/
theorem direct_table (d : Dialect) (depth : Nat) (ref : StmtRef) (st : Stmt) (s : St) (hr : s.recording = none)
    (hd : ∀ t ∈ (substituteWithDict st.tokens s.defines 0).head?, dget s.macros (d.key t) = none) :
    ∃ τ, (execInstr d (depth + 1) ref st s).2.macros = wbTable ref τ s.macros := by
  refine ⟨substituteWithDict st.tokens s.defines 0, ?_⟩
  cases ht : substituteWithDict st.tokens s.defines 0 with
  | nil =>
    rw [execInstr, bind_eq, get_eq]
    simp only [hr]
    rw [bind_eq, writeBack_eq]
    simp only [ht]
    rfl
  | cons t rest =>
    rw [ht] at hd
    rw [execInstr_eq d depth ref st s hr ht, hd t (by simp)]
    simp only
    cases d.instrs (d.key t) with
    | none => rfl
    | some i =>
      cases i with
      | fixed blob => simp only; split <;> rfl
      | handler f =>
        simp only
        rw [bind_eq]
        have := runHandler_macros d f (t :: rest) { s with macros := wbTable ref (t :: rest) s.macros }
        cases hres : runHandler d f (t :: rest) { s with macros := wbTable ref (t :: rest) s.macros } with
        | mk r s1 =>
        rw [hres] at this
        cases r with
        | error e => exact this
        | ok b => exact this

theorem dget_setTok_none {t : List (Str × Macro)} {k key : Str} (h : dget t k = none) (i : Nat) (τ : List Str) :
    dget (setTok t key i τ) k = none := by
  unfold setTok
  cases hm : dget t key with
  | none => exact h
  | some m =>
    simp only
    rw [dget_dset, if_neg]
    · exact h
    · rintro rfl; rw [hm] at h; simp at h

def SameDefines (s s' : St) : Prop := s'.defines = s.defines

theorem rel_sameDefines : InstrRel SameDefines where
  refl := fun _ => rfl
  trans := fun h1 h2 => by unfold SameDefines at *; rw [h2, h1]
  append := fun _ _ => rfl
  reloc := fun _ _ => rfl
  macros := fun _ _ => rfl

theorem failing_loop (d : Dialect) (depth : Nat) (key : Str) (m : Macro) (args : List Str)
    (md : List (Str × Str)) (hmd : macroDict m.args args [] = .ok md) (l : List Stmt) : ∀ (i : Nat),
    m.body.drop i = l → ∀ (s s' : St) e, s.recording = none → dget s.macros key = some m →
    (∀ st ∈ l, ∀ t ∈ (substituteWithDict (substituteWithDict st.tokens md 0) s.defines 0).head?,
      dget s.macros (d.key t) = none) →
    forEach (List.range' i l.length) (macroStep (execInstr d depth) key m.args args) s = (.error e, s') →
    ∃ idx τ, s'.macros = setTok s.macros key idx τ := by
  induction l with
  | nil => intro i _ s s' e _ _ _ h; simp [forEach_nil] at h
  | cons st l ih =>
    intro i hi s s' e hr hm hdir h
    have hst : m.body[i]? = some st := by
      have := congrArg (fun x => x[0]?) hi
      simpa [List.getElem?_drop] using this
    have hi' : m.body.drop (i + 1) = l := by
      rw [← List.drop_drop, hi]; rfl
    have hd0 := hdir st (List.mem_cons_self ..)
    rw [List.length_cons, List.range'_succ, forEach_cons, macroStep_eq _ _ _ _ _ _ hm hst hmd] at h
    generalize hτ : substituteWithDict st.tokens md 0 = τ at h hd0
    cases hx : execInstr d depth (some (key, i)) { st with tokens := τ } { s with macros := setTok s.macros key i τ } with
    | mk r s1 =>
    rw [hx] at h
    cases r with
    | error e' =>
      simp only [Prod.mk.injEq] at h
      obtain ⟨_, h⟩ := h
      subst h
      cases depth with
      | zero =>
        injection hx with _ hx; subst hx
        exact ⟨i, τ, rfl⟩
      | succ depth =>
        obtain ⟨τ', h'⟩ := direct_table d depth (some (key, i)) { st with tokens := τ }
          { s with macros := setTok s.macros key i τ } hr (fun t ht => dget_setTok_none (hd0 t ht) _ _)
        rw [hx] at h'
        simp only [wbTable] at h'
        rw [setTok_setTok] at h'
        exact ⟨i, τ', h'⟩
    | ok v =>
      simp only at h
      have htab := execInstr_table d depth _ _ { s with macros := setTok s.macros key i τ } _ _ hr hx
      have hrest : setTok s1.macros key i st.tokens = s.macros := by
        rw [htab]
        simp only [wbTable]
        rw [setTok_setTok, setTok_setTok, setTok_same hm hst]
      rw [hrest] at h
      have hk := keeps_execInstr rel_sameRecording d depth (some (key, i)) { st with tokens := τ }
        { s with macros := setTok s.macros key i τ }
      have hk' := keeps_execInstr rel_sameDefines d depth (some (key, i)) { st with tokens := τ }
        { s with macros := setTok s.macros key i τ }
      rw [hx] at hk hk'
      exact ih (i + 1) hi' { s1 with macros := s.macros } s' e (hk.trans hr) hm
        (fun y hy t ht => hdir y (List.mem_cons_of_mem _ hy) t (by
          have : s1.defines = s.defines := hk'
          simp only [this] at ht; exact ht)) h

/-- C32: a failed invocation of a macro whose statements are plain instructions changes at
most one of them, the one that failed. -/
theorem C32_failure (d : Dialect) (depth : Nat) (st : Stmt) (s s' : St) (e : Err) (hr : s.recording = none)
    (t : Str) (args : List Str) (ht : substituteWithDict st.tokens s.defines 0 = t :: args)
    (m : Macro) (hm : s.macros.lookup (d.key t) = some m)
    (hdir : ∀ x ∈ inlined m args, ∀ n ∈ (substituteWithDict x.tokens s.defines 0).head?, s.macros.lookup (d.key n) = none)
    (h : execInstr d (depth + 1) none st s = (.error e, s')) :
    (∀ k, k ≠ d.key t → s'.macros.lookup k = s.macros.lookup k) ∧
    ∃ (m' : Macro) (idx : Nat), s'.macros.lookup (d.key t) = some m' ∧ m'.args = m.args ∧ m'.body.length = m.body.length ∧
      ∀ j, j ≠ idx → m'.body[j]? = m.body[j]? := by
  rw [← dget_eq_lookup] at hm
  rw [execInstr_eq d depth none st s hr ht, hm] at h
  simp only [runMacro, List.drop_succ_cons, List.drop_zero, List.range_eq_range', wbTable] at h
  have key : ∃ idx τ, s'.macros = setTok s.macros (d.key t) idx τ := by
    by_cases hargs : m.args.length ≤ args.length
    · obtain ⟨md, hmd⟩ := (macroDict_ok_iff m.args args []).1 hargs
      have hl : ∀ k, dget md k = dget (m.args.zip args).reverse k := fun k => by
        rw [macroDict_lookup _ _ _ _ hmd, List.append_nil, dget_eq_lookup]
      refine failing_loop d depth (d.key t) m args md hmd m.body 0 rfl s s' e hr hm ?_ h
      intro y hy n hn
      rw [dget_eq_lookup]
      refine hdir { y with tokens := substituteWithDict y.tokens (m.args.zip args).reverse 0 } ?_ n ?_
      · exact List.mem_map.2 ⟨y, hy, rfl⟩
      · rw [← substitute_congr hl]; exact hn
    · have hmd := (macroDict_ok_iff m.args args []).2 (by omega)
      cases hb : m.body with
      | nil => rw [hb] at h; simp [forEach_nil] at h
      | cons x l =>
        rw [hb, List.length_cons, List.range'_succ, forEach_cons,
          macroStep_missing _ _ _ _ _ _ hm (by rw [hb]; rfl) hmd] at h
        injection h with _ h
        refine ⟨0, x.tokens, ?_⟩
        rw [← h, setTok_same hm (by rw [hb]; rfl)]
  obtain ⟨idx, τ, hk⟩ := key
  rw [hk]
  unfold setTok
  rw [hm]
  simp only
  refine ⟨fun k hne => ?_, ?_⟩
  · rw [← dget_eq_lookup, dget_dset, if_neg (fun e => hne e.symm), dget_eq_lookup]
  · refine ⟨{ m with body := m.body.modify idx fun st => { st with tokens := τ } }, idx,
      by rw [← dget_eq_lookup, dget_dset_self], rfl, by simp, fun j hj => ?_⟩
    simp only
    have hj' : ¬ idx = j := fun e => hj e.symm
    rw [List.getElem?_modify]
    simp [hj']

/-- The failed use `M` of `LDA v` with `v := 1000000` leaves the argument in the body, so the
next use with a good argument fails as well. -/
example :
    let s := (assemble mos6502 {} 9 ".macro M v\nLDA v\n.endmacro".toList mos6502.init).2
    let s1 := (assemble mos6502 {} 9 "M 1000000".toList s).2
    (assemble mos6502 {} 9 "M 7".toList s).1 = .ok () ∧ (assemble mos6502 {} 9 "M 7".toList s1).1 ≠ .ok () := by
  decide +kernel

/-! ## C33 -/

/-- C33: an instruction that is not a macro and fails.  The error is an assembler exception;
output, pc, origin, labels, sections, macros, defines, exports and modes are unchanged (only
label references recorded before the failure can remain). -/
theorem C33_failure (d : Dialect) (depth : Nat) (tokens : List Str) (l : Nat) (s s' : St) (e : Err)
    (hr : s.recording = none) (ht : tokens ≠ [])
    (hm : ∀ t ∈ (substituteWithDict tokens s.defines 0).head?, s.macros.lookup (d.key t) = none)
    (h : execInstr d (depth + 1) none ⟨.instr, tokens, l⟩ s = (.error e, s')) :
    e.isAssembler = true ∧ ∃ r, s' = { s with relocs := r } := by
  cases hs : substituteWithDict tokens s.defines 0 with
  | nil =>
    have := C05_length tokens s.defines 0
    rw [hs] at this
    exact absurd (List.length_eq_zero_iff.1 this.symm) ht
  | cons t rest =>
  have hm0 := hm t (by rw [hs]; simp)
  rw [← dget_eq_lookup] at hm0
  rw [execInstr_eq d depth none _ s hr hs, hm0] at h
  simp only [wbTable] at h
  have hrel : ∀ (l : List Reloc) (s : St), ∃ r, l.foldl addReloc s = { s with relocs := r } := by
    intro l
    induction l with
    | nil => intro s; exact ⟨s.relocs, rfl⟩
    | cons x l ih =>
      intro s
      obtain ⟨r, hr⟩ := ih (addReloc s x)
      exact ⟨r, by rw [List.foldl_cons, hr]; rfl⟩
  cases hi : d.instrs (d.key t) with
  | none =>
    rw [hi] at h
    injection h with h1 h2; injection h1 with h1; subst h1; subst h2
    exact ⟨rfl, s.relocs, rfl⟩
  | some i =>
    rw [hi] at h
    cases i with
    | fixed blob =>
      simp only at h
      split at h
      · injection h with h1 h2; injection h1 with h1; subst h1; subst h2
        exact ⟨rfl, s.relocs, rfl⟩
      · injection h with h1 h2; simp at h1
    | handler f =>
      simp only at h
      rw [bind_eq] at h
      have hst := runHandler_state d f (t :: rest) s
      obtain ⟨r, hr'⟩ := hrel (f (t :: rest) ⟨s.pc, s.labels, d.sy, s.bitsMode⟩).2 s
      rw [hr'] at hst
      cases hres : runHandler d f (t :: rest) s with
      | mk r0 s1 =>
      rw [hres] at h hst
      cases r0 with
      | ok b => injection h with h1 h2; simp at h1
      | error e' =>
        injection h with h1 h2; injection h1 with h1; subst h1; subst h2
        refine ⟨?_, r, hst⟩
        unfold runHandler at hres
        cases hf : f (t :: rest) ⟨s.pc, s.labels, d.sy, s.bitsMode⟩ with
        | mk r1 rel =>
        rw [hf] at hres
        rcases r1 with e0 | _ | _
        · simp only at hres
          injection hres with h1 _; injection h1 with h1; rw [← h1]
          split <;> first | assumption | rfl
        · simp only at hres
          injection hres with h1 _; injection h1 with h1; rw [← h1]; rfl
        · simp only at hres
          injection hres with h1 _; simp at h1

/-- C33 with macros: the raw Python errors an instruction statement can end in are the ones of
the macro mechanism itself, a missing argument, unbounded recursion, or an empty statement. -/
theorem C33_raw_errors (d : Dialect) : ∀ (depth : Nat) (ref : StmtRef) (st : Stmt) (s s' : St) (e : Err),
    execInstr d depth ref st s = (.error e, s') →
    e.isAssembler = true ∨ e = .indexError ∨ e = .recursionError ∨ e = .keyError := by
  intro depth
  induction depth with
  | zero =>
    intro ref st s s' e h
    injection h with h1 _; injection h1 with h1; subst h1; simp
  | succ depth ih =>
    intro ref st s s' e h
    cases hr : s.recording with
    | some key =>
      rw [execInstr, bind_eq, get_eq] at h
      simp only [hr, recordStmt] at h
      split at h
      · injection h with h1 _; simp at h1
      · injection h with h1 _; injection h1 with h1; subst h1; simp
    | none =>
    cases ht : substituteWithDict st.tokens s.defines 0 with
    | nil =>
      rw [execInstr, bind_eq, get_eq] at h
      simp only [hr] at h
      rw [bind_eq, writeBack_eq] at h
      simp only [ht] at h
      injection h with h1 _; injection h1 with h1; subst h1; simp
    | cons t rest =>
    cases hm : dget s.macros (d.key t) with
    | none =>
      left
      rw [execInstr_eq d depth ref st s hr ht, hm] at h
      have : st.tokens ≠ [] := by rintro h0; rw [h0] at ht; simp [substituteWithDict] at ht
      have h2 : execInstr d (depth + 1) none ⟨.instr, st.tokens, st.line⟩ { s with macros := wbTable ref (t :: rest) s.macros } = (.error e, s') := by
        rw [execInstr_eq d depth none ⟨.instr, st.tokens, st.line⟩ { s with macros := wbTable ref (t :: rest) s.macros } hr ht]
        have hw : dget (wbTable ref (t :: rest) s.macros) (d.key t) = none := by
          cases ref with
          | none => exact hm
          | some p => exact dget_setTok_none hm _ _
        simp only [hw]
        exact h
      refine (C33_failure d depth st.tokens st.line { s with macros := wbTable ref (t :: rest) s.macros } s' e hr this ?_ h2).1
      intro x hx
      simp only at hx ⊢
      rw [ht] at hx
      simp only [List.head?_cons, Option.mem_def, Option.some.injEq] at hx
      subst hx
      rw [← dget_eq_lookup]
      cases ref with
      | none => exact hm
      | some p => exact dget_setTok_none hm _ _
    | some m =>
      rw [execInstr_eq d depth ref st s hr ht, hm] at h
      simp only [runMacro, List.drop_succ_cons, List.drop_zero] at h
      generalize { s with macros := wbTable ref (t :: rest) s.macros } = s0 at h
      generalize List.range m.body.length = l at h
      induction l generalizing s0 with
      | nil => injection h with h1 _; simp at h1
      | cons i l ihl =>
        rw [forEach_cons] at h
        cases hx : macroStep (execInstr d depth) (d.key t) m.args rest i s0 with
        | mk r s1 =>
        rw [hx] at h
        cases r with
        | ok v => exact ihl s1 h
        | error e' =>
          simp only [Prod.mk.injEq, Except.error.injEq] at h
          obtain ⟨h, _⟩ := h
          subst h
          cases hm0 : dget s0.macros (d.key t) with
          | none =>
            unfold macroStep at hx
            rw [bind_eq, get_eq] at hx
            simp only [hm0] at hx
            injection hx with h1 _; injection h1 with h1; subst h1; simp
          | some m0 =>
          cases hst : m0.body[i]? with
          | none =>
            unfold macroStep at hx
            rw [bind_eq, get_eq] at hx
            simp only [hm0, hst] at hx
            injection hx with h1 _; simp at h1
          | some st0 =>
          by_cases hargs : m.args.length ≤ rest.length
          · obtain ⟨md, hmd⟩ := (macroDict_ok_iff m.args rest []).1 hargs
            rw [macroStep_eq _ _ _ _ _ _ hm0 hst hmd] at hx
            cases hy : execInstr d depth (some (d.key t, i)) { st0 with tokens := substituteWithDict st0.tokens md 0 }
                { s0 with macros := setTok s0.macros (d.key t) i (substituteWithDict st0.tokens md 0) } with
            | mk r2 s2 =>
            rw [hy] at hx
            cases r2 with
            | ok v => injection hx with h1 _; simp at h1
            | error e2 =>
              injection hx with h1 _; injection h1 with h1; subst h1
              exact ih _ _ _ _ _ hy
          · have hmd := (macroDict_ok_iff m.args rest []).2 (by omega)
            rw [macroStep_missing _ _ _ _ _ _ hm0 hst hmd] at hx
            injection hx with h1 _; injection h1 with h1; subst h1; simp

/-- A failing handler: `LDA 1000000` raises, and the state is as before. -/
example : (execInstr mos6502 3 none ⟨.instr, ["LDA".toList, "1000000".toList], 1⟩ { bytes := [1] }).1 =
      .error .notInBitRange ∧
    (execInstr mos6502 3 none ⟨.instr, ["LDA".toList, "1000000".toList], 1⟩ { bytes := [1] }).2.bytes = [1] := by
  decide +kernel

end Necro
