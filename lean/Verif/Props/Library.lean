import Verif.Spec.Library
import Verif.Lemmas.MoreMacros
import Verif.Props.Macros
import Verif.Props.Compose
import Verif.Lemmas.Visits
/-!
# C94: macros that are not called
-/

namespace Necro

open Spec
open M (throw get modify lift forEach times)

theorem class_none {d : Dialect} (hd : d.caseSensitive = false) {key : Str} : ∀ (l : List (String × (List Str → M Unit))),
    (∀ n ∈ l.map Prod.fst, upper n.toList ≠ key) → classDirectives d l key = none
  | [], _ => rfl
  | p :: l, h => by
    have h1 : upper p.1.toList ≠ key := h p.1 (by simp)
    have h2 : d.key p.1.toList = upper p.1.toList := by simp [Dialect.key, hd]
    show (if d.key p.1.toList = key then some p.2 else classDirectives d l key) = none
    rw [h2, if_neg h1]
    exact class_none hd l fun n hn => h n (by simp at hn ⊢; exact .inr hn)

theorem upper_key {d : Dialect} (hd : d.caseSensitive = false) (t : Str) : d.key t = upper t := by simp [Dialect.key, hd]

/-- No class replaces `.macro`, `.endmacro`, `.include`, `.define`, `.log` or `.export`. -/
theorem tool_noOwn (tool : Tool) (env : Env) : ∀ w ∈ ["macro", "endmacro", "include", "define", "log", "export"], tool.dialect.directives env (tool.dialect.key w.toList) = none := by
  have sms : ∀ base : Dialect, base.caseSensitive = false → ∀ w ∈ ["macro", "endmacro", "include", "define", "log", "export"], (smsOn base).directives env (base.key w.toList) = none := by
    intro base hb w hw
    refine class_none hb [("tiles", smsTiles env)] ?_
    rw [upper_key hb, show ([("tiles", smsTiles env)] : List (String × (List Str → M Unit))).map Prod.fst = ["tiles"] from rfl]
    revert w
    decide
  have gb : ∀ base : Dialect, base.caseSensitive = false → ∀ w ∈ ["macro", "endmacro", "include", "define", "log", "export"], (gameboyOn base).directives env (base.key w.toList) = none := by
    intro base hb w hw
    refine class_none hb (gameboyDirectives base env) ?_
    rw [upper_key hb, show (gameboyDirectives base env).map Prod.fst = ["cartridge", "cartridge_title", "cartridge_license", "cartridge_cgb", "cartridge_sgb",
      "cartridge_type", "cartridge_destination", "tiles"] from rfl]
    revert w
    decide
  have ns : ∀ w ∈ ["macro", "endmacro", "include", "define", "log", "export"], nes.directives env (mos6502.key w.toList) = none := by
    intro w hw
    refine class_none (d := mos6502) rfl (nesDirectives mos6502 env) ?_
    rw [upper_key rfl, show (nesDirectives mos6502 env).map Prod.fst = ["cartridge", "cartridge_prg_roms", "cartridge_chr_roms", "chr_pattern_table"] from rfl]
    revert w
    decide
  cases tool with
  | sms => exact sms _ rfl
  | gameboy => exact gb _ rfl
  | nes => exact ns
  | _ =>
    intro w hw
    simp only [List.mem_cons, List.not_mem_nil, or_false] at hw
    rcases hw with rfl | rfl | rfl | rfl | rfl | rfl <;> rfl

/-- A definition leaves a state with one more macro. -/
theorem define_more (tool : Tool) (env : Env) (n : Nat) (rec : Str → M Unit) {m : MacroText} {s t : St} (hf : m.Fresh tool.dialect s) (hr : s.recording = none)
    (hst : More tool.dialect s t) : ∃ t', forEach m.stmts (execStmt tool.dialect env (n + 1) rec) t = (.ok (), t') ∧ More tool.dialect s t' := by
  obtain ⟨b, rfl, hm⟩ := hst
  obtain ⟨name, params, h1, h2, h3⟩ := hf.named
  obtain ⟨table, h4, h5⟩ := C30_definition tool.dialect env n rec (tool_noOwn tool env _ (by simp)) (tool_noOwn tool env _ (by simp)) m.head m.close m.line m.last hf.head hf.close
    m.args m.rest name params m.body hf.body { s with macros := b } hr h1
  refine ⟨_, h4, table, rfl, fun k => ?_⟩
  rw [dget_eq_lookup, dget_eq_lookup, h5]
  by_cases hk : tool.dialect.key name = k
  · subst hk; exact .inr ⟨h3, .inr h2⟩
  · rw [if_neg hk, ← dget_eq_lookup, ← dget_eq_lookup]; exact hm k

/-- C94: a program that is assembled is assembled to the same state, but for its macros, after the definition of a macro is put
in anywhere, if the name of the macro is not that of an instruction and no macro of this name has been defined before. -/
theorem C94_definition (tool : Tool) (env : Env) (n : Nat) {code code' : Str} {pre post pre' post' : List Stmt} {m : MacroText}
    (h : tokenize code = .ok (pre ++ post)) (h' : tokenize code' = .ok (pre' ++ m.stmts ++ post')) (hpre : pre.map content = pre'.map content)
    (hpost : post.map content = post'.map content) {s s1 s' : St}
    (h1 : forEach pre (execStmt tool.dialect env (n + 1) (assemble tool.dialect env (n + 1))) s = (.ok (), s1)) (hr : s1.recording = none)
    (hf : m.Fresh tool.dialect s1) (hs : assemble tool.dialect env (n + 2) code s = (.ok (), s')) :
    ∃ t', assemble tool.dialect env (n + 2) code' s = (.ok (), t') ∧ SameButMacros s' t' := by
  have hc := frame_tool tool env
  have hrec := simMore_assemble hc (n + 1)
  rw [assemble, bind_eq, lift_eq, h] at hs
  dsimp only at hs
  unfold execStmts at hs
  rw [bind_eq, forEach_append, h1] at hs
  dsimp only at hs
  obtain ⟨t1, g1, g2⟩ := simMore_stmts hc hrec (n + 1) hpre s s () s1 (more_refl _ s) h1
  obtain ⟨t2, g3, g4⟩ := define_more tool env n (assemble tool.dialect env (n + 1)) hf hr g2
  have hs2 : (forEach post (execStmt tool.dialect env (n + 1) (assemble tool.dialect env (n + 1))) >>= fun _ => finalFill tool.dialect >>= fun _ => closeSection) s1 = (.ok (), s') := by rw [bind_eq]; exact hs
  obtain ⟨t3, g5, b, g6, -⟩ := SimMore.bind (simMore_stmts hc hrec (n + 1) hpost) (fun _ => simMore_finish) s1 t2 () s' g4 hs2
  refine ⟨t3, ?_, by rw [g6]; rfl⟩
  rw [assemble, bind_eq, lift_eq, h']
  dsimp only
  unfold execStmts
  rw [bind_eq, forEach_append, forEach_append, g1]
  dsimp only
  rw [g3]
  dsimp only
  rw [bind_eq] at g5
  exact g5

/-! ## a library in front of a program -/

/-- The definitions of a library, one after the other. -/
theorem define_all (tool : Tool) (env : Env) (n : Nat) (rec : Str → M Unit) {s : St} (hr : s.recording = none) : ∀ (defs : List MacroText) t,
    (∀ m ∈ defs, m.Fresh tool.dialect s) → More tool.dialect s t →
    ∃ t', forEach (defs.flatMap MacroText.stmts) (execStmt tool.dialect env (n + 1) rec) t = (.ok (), t') ∧ More tool.dialect s t'
  | [], t, _, h => ⟨t, rfl, h⟩
  | m :: defs, t, hf, h => by
    obtain ⟨t1, g1, g2⟩ := define_more tool env n rec (hf m (by simp)) hr h
    obtain ⟨t2, g3, g4⟩ := define_all tool env n rec hr defs t1 (fun m hm => hf m (by simp [hm])) g2
    refine ⟨t2, ?_, g4⟩
    rw [List.flatMap_cons, forEach_append, g1]
    exact g3

/-- A library is assembled to nothing but its macros. -/
theorem library_state (tool : Tool) (env : Env) (n : Nat) {code : Str} {defs : List MacroText} (ht : tokenize code = .ok (defs.flatMap MacroText.stmts))
    (hf : ∀ m ∈ defs, m.Fresh tool.dialect tool.dialect.init) :
    ∃ t, assemble tool.dialect env (n + 2) code tool.dialect.init = (.ok (), t) ∧ More tool.dialect tool.dialect.init t := by
  have hrec : tool.dialect.init.recording = none := by cases tool <;> rfl
  obtain ⟨t1, g1, b, rfl, g2⟩ := define_all tool env n (assemble tool.dialect env (n + 1)) hrec defs tool.dialect.init hf (more_refl _ _)
  have hend : (finalFill tool.dialect >>= fun _ => closeSection) { tool.dialect.init with macros := b } = (.ok (), { tool.dialect.init with macros := b }) := by
    cases tool <;> rfl
  refine ⟨_, ?_, b, rfl, g2⟩
  rw [assemble, bind_eq, lift_eq, ht]
  dsimp only
  unfold execStmts
  rw [bind_eq, g1]
  exact hend

/-- What a program does between reading its arguments and writing its output. -/
theorem library_sources (tool : Tool) (env : Env) (n : Nat) (k : LinkerKind) {lib : Str} {code : Str} {defs : List MacroText} (hl : env.text lib = some code)
    (ht : tokenize code = .ok (defs.flatMap MacroText.stmts)) (hf : ∀ m ∈ defs, m.Fresh tool.dialect tool.dialect.init) {names : List Str} {s' : St}
    (h : (forEach names (fun name => do let code ← openFile (env.text name); assemble tool.dialect env (n + 2) code) >>= fun _ => link tool.dialect k) tool.dialect.init =
      (.ok (), s')) :
    ∃ t', (forEach (lib :: names) (fun name => do let code ← openFile (env.text name); assemble tool.dialect env (n + 2) code) >>= fun _ => link tool.dialect k)
      tool.dialect.init = (.ok (), t') ∧ SameButMacros s' t' := by
  obtain ⟨t1, g1, g2⟩ := library_state tool env n ht hf
  have hsim : SimMore tool.dialect (forEach names (fun name => do let code ← openFile (env.text name); assemble tool.dialect env (n + 2) code) >>= fun _ => link tool.dialect k)
      (forEach names (fun name => do let code ← openFile (env.text name); assemble tool.dialect env (n + 2) code) >>= fun _ => link tool.dialect k) := by
    refine .bind (.forEach (P := fun x y => x = y) (fun x y h => ?_) (forall₂_refl _)) fun _ => .frame (frame_link tool _)
    subst h
    exact .bind (.frame (frame_openFile _)) fun c => simMore_assemble (frame_tool tool env) _ c
  obtain ⟨t', g3, b', g4, -⟩ := hsim tool.dialect.init t1 () s' g2 h
  refine ⟨t', ?_, by rw [g4]; rfl⟩
  rw [← g3, bind_eq, bind_eq, forEach_cons, bind_eq, hl]
  have : openFile (some code) tool.dialect.init = (.ok code, tool.dialect.init) := rfl
  rw [this]
  dsimp only
  rw [g1]

/-- C94: a file that consists of definitions of macros, given before the sources of a program that builds, does not change the
output, if the names of the macros are not those of instructions. -/
theorem C94_library (tool : Tool) (env : Env) (n : Nat) {lib : Str} {code : Str} {defs : List MacroText} (hl : env.text lib = some code)
    (ht : tokenize code = .ok (defs.flatMap MacroText.stmts)) (hf : ∀ m ∈ defs, m.Fresh tool.dialect tool.dialect.init) {names : List Str} {bytes : Bytes}
    (hb : build tool.dialect env (n + 2) names = .ok bytes) : build tool.dialect env (n + 2) (lib :: names) = .ok bytes := by
  unfold build mainRun at hb ⊢
  split at hb
  · rename_i s hs
    cases hb
    obtain ⟨t', h1, h2⟩ := library_sources tool env n .dummy hl ht hf hs
    rw [h1]
    dsimp only
    rw [h2]
  · cases hb

/-- C94: the same for object files. -/
theorem C94_object (tool : Tool) (c : ElfCfg) (env : Env) (n : Nat) {lib : Str} {code : Str} {defs : List MacroText} (hl : env.text lib = some code)
    (ht : tokenize code = .ok (defs.flatMap MacroText.stmts)) (hf : ∀ m ∈ defs, m.Fresh tool.dialect tool.dialect.init) {names : List Str} {bytes : Bytes}
    (hb : elfBuild c tool.dialect env (n + 2) names = .ok bytes) : elfBuild c tool.dialect env (n + 2) (lib :: names) = .ok bytes := by
  unfold elfBuild at hb ⊢
  split at hb
  · rename_i s hs
    obtain ⟨t', h1, h2⟩ := library_sources tool env n .elf hl ht hf hs
    rw [h1]
    dsimp only
    rw [h2]
    exact hb
  · cases hb

theorem main_library {make : Env → Nat → List Str → Except Err Bytes} {m : Machine} {sources : List Str} {lib out : Str} {disk disk' : Disk}
    (hmake : ∀ b, make (m.view disk) m.depth sources = .ok b → make (m.view disk) m.depth (lib :: sources) = .ok b)
    (h : assemblerMain make m (sources ++ [out]) disk = (.ok (), disk')) : assemblerMain make m (lib :: sources ++ [out]) disk = (.ok (), disk') := by
  unfold assemblerMain at h ⊢
  simp only [List.getLast?_append, List.getLast?_singleton, Option.some_or, List.dropLast_concat] at h ⊢
  split at h
  · cases h
  · rename_i b hb
    rw [hmake b hb]
    exact h

/-- C94: a run of one of the programs that take several sources, with the library named in front of the sources, writes the same. -/
theorem C94_run (tool : Tool) (htool : tool ∉ [Tool.gba, .genesis, .psx, .nes]) (m : Machine) (hd : 2 ≤ m.depth) {lib out : Str} {sources : List Str} {disk disk' : Disk}
    {code : Str} {defs : List MacroText} (hl : (m.view disk).text lib = some code) (ht : tokenize code = .ok (defs.flatMap MacroText.stmts))
    (hf : ∀ x ∈ defs, x.Fresh tool.dialect tool.dialect.init) (h : tool.run m (sources ++ [out]) disk = (.ok (), disk')) :
    tool.run m (lib :: sources ++ [out]) disk = (.ok (), disk') := by
  obtain ⟨n, hn⟩ := Nat.exists_eq_add_of_le' hd
  have e1 : ∀ b, build tool.dialect (m.view disk) m.depth sources = .ok b → build tool.dialect (m.view disk) m.depth (lib :: sources) = .ok b := by
    rw [hn]; exact fun b hb => C94_library tool _ n hl ht hf hb
  have e2 : ∀ c b, elfBuild c tool.dialect (m.view disk) m.depth sources = .ok b → elfBuild c tool.dialect (m.view disk) m.depth (lib :: sources) = .ok b := by
    rw [hn]; exact fun c b hb => C94_object tool c _ n hl ht hf hb
  cases tool with
  | gba | genesis | psx | nes => simp at htool
  | i386Elf | ppcElf | x86Elf => exact main_library (e2 _) h
  | _ => exact main_library e1 h

/-! ## a library that is included -/

/-- C94: a source that includes a library before anything else is assembled as without it. -/
theorem C94_include (tool : Tool) (env : Env) (n : Nat) {code code' lib : Str} {post post' : List Stmt} {defs : List MacroText} {t arg a : Str} {line : Nat}
    (h : tokenize code = .ok post) (h' : tokenize code' = .ok (⟨.directive, [t, arg], line⟩ :: post')) (hpost : post.map content = post'.map content)
    (hi : IsDirectiveToken tool.dialect t "include") (hsub : substituteWithDict [arg] tool.dialect.init.defines 0 = [a]) (ha : a ≠ [])
    (hl : env.text (fileName a) = some lib) (ht : tokenize lib = .ok (defs.flatMap MacroText.stmts))
    (hf : ∀ m ∈ defs, m.Fresh tool.dialect tool.dialect.init) {s' : St} (hs : assemble tool.dialect env (n + 3) code tool.dialect.init = (.ok (), s')) :
    ∃ t', assemble tool.dialect env (n + 3) code' tool.dialect.init = (.ok (), t') ∧ SameButMacros s' t' := by
  have hc := frame_tool tool env
  have hrec := simMore_assemble hc (n + 2)
  obtain ⟨t1, g1, g2⟩ := library_state tool env n ht hf
  rw [assemble, bind_eq, lift_eq, h] at hs
  dsimp only at hs
  have hs2 : (forEach post (execStmt tool.dialect env (n + 2) (assemble tool.dialect env (n + 2))) >>= fun _ => finalFill tool.dialect >>= fun _ => closeSection)
      tool.dialect.init = (.ok (), s') := hs
  obtain ⟨t3, g5, b, g6, -⟩ := SimMore.bind (simMore_stmts hc hrec (n + 2) hpost) (fun _ => simMore_finish) _ t1 () s' g2 hs2
  refine ⟨t3, ?_, by rw [g6]; rfl⟩
  have hone : execStmt tool.dialect env (n + 2) (assemble tool.dialect env (n + 2)) ⟨.directive, [t, arg], line⟩ tool.dialect.init = (.ok (), t1) := by
    rw [execStmt_directive, exec_builtin (p := ("include", directiveInclude env (assemble tool.dialect env (n + 2)))) (by simp [builtinDirective]) (tool_noOwn tool env _ (by simp)) hi, hsub]
    show (stringify a >>= fun name => openFile (env.text name) >>= fun code => assemble tool.dialect env (n + 2) code) _ = _
    rw [bind_eq, stringify_file ha]
    dsimp only
    rw [hl]
    exact g1
  rw [assemble, bind_eq, lift_eq, h']
  dsimp only
  unfold execStmts
  rw [bind_eq, forEach_cons, hone]
  rw [bind_eq] at g5
  exact g5

theorem frame_gba : Frame gbaFix := by
  have : ∀ l acc, Frame (gbaLoop l acc) := by
    intro l
    induction l with
    | nil => exact fun acc => .pure _
    | cons i l ih => exact fun acc => .bind (frame_readByte i) fun b => ih _
  exact .bind (this _ _) fun _ => frame_setByte _ _

theorem frame_genesis : Frame genesisFix := by
  have : ∀ n i acc, Frame (genesisLoop n i acc) := by
    intro n
    induction n with
    | zero => exact fun i acc => .pure _
    | succ n ih => exact fun i acc => .bind (frame_readByte i) fun b => .bind (frame_readByte _) fun b => ih _ _
  exact .getBind (fun _ _ _ => rfl) fun s => .bind (this _ _ _) fun _ => .bind (frame_setByte _ _) fun _ => frame_setByte _ _

/-- A single source and what a platform does to the bytes. -/
theorem runFile_macros {tool : Tool} {fix : M Unit} (hfix : Frame fix) {m : Machine} {source source' : Str} {rest rest' : List Str} {disk : Disk} {code code' : Str} {s' : St}
    (h1 : (m.view disk).text source = some code) (h2 : (m.view disk).text source' = some code')
    (hmore : ∀ s, assemble tool.dialect (m.view disk) m.depth code tool.dialect.init = (.ok (), s) →
      ∃ t, assemble tool.dialect (m.view disk) m.depth code' tool.dialect.init = (.ok (), t) ∧ SameButMacros s t)
    (h : runFile tool.dialect fix m (source :: rest) disk = (.ok (), s')) :
    ∃ t', runFile tool.dialect fix m (source' :: rest') disk = (.ok (), t') ∧ SameButMacros s' t' := by
  have shape : ∀ (name text : Str) (l : List Str), (m.view disk).text name = some text → runFile tool.dialect fix m (name :: l) disk =
      (match assemble tool.dialect (m.view disk) m.depth text tool.dialect.init with
        | (.error e, s) => (.error e, s)
        | (.ok (), s) => (link tool.dialect .dummy >>= fun _ => fix) s) := by
    intro name text l hn
    show ((forEach [name] (fun name => do let code ← openFile ((m.view disk).text name); assemble tool.dialect (m.view disk) m.depth code) >>= fun _ => link tool.dialect .dummy) >>= fun _ => fix)
      tool.dialect.init = _
    rw [bind_eq, bind_eq, forEach_cons, bind_eq, hn]
    have : openFile (some text) tool.dialect.init = (.ok text, tool.dialect.init) := rfl
    rw [this]
    dsimp only
    rcases assemble tool.dialect (m.view disk) m.depth text tool.dialect.init with ⟨_ | u, s⟩ <;> rfl
  rw [shape _ _ _ h1] at h
  rw [shape _ _ _ h2]
  rcases hr : assemble tool.dialect (m.view disk) m.depth code tool.dialect.init with ⟨_ | u, s1⟩
  · rw [hr] at h; cases h
  · rw [hr] at h
    obtain ⟨t1, g1, g2⟩ := hmore s1 hr
    rw [g1]
    dsimp only at h ⊢
    have hfr : MacFrame (link tool.dialect .dummy >>= fun _ => fix) := .bind (frame_link tool _).mac fun _ => hfix.mac
    rw [g2, hfr s1 t1.macros, h]
    exact ⟨_, rfl, rfl⟩

/-- C94: for the programs that take a single source, a source that includes the library first. -/
theorem C94_include_run (tool : Tool) (htool : tool ∈ [Tool.gba, .genesis, .psx, .nes]) (m : Machine) (hd : 3 ≤ m.depth) {source source' out : Str} {rest : List Str}
    {disk disk' : Disk} {code code' lib : Str} {post post' : List Stmt} {defs : List MacroText} {t arg a : Str} {line : Nat}
    (h1 : (m.view disk).text source = some code) (h2 : (m.view disk).text source' = some code')
    (h : tokenize code = .ok post) (h' : tokenize code' = .ok (⟨.directive, [t, arg], line⟩ :: post')) (hpost : post.map content = post'.map content)
    (hi : IsDirectiveToken tool.dialect t "include") (hsub : substituteWithDict [arg] tool.dialect.init.defines 0 = [a]) (ha : a ≠ [])
    (hl : (m.view disk).text (fileName a) = some lib) (ht : tokenize lib = .ok (defs.flatMap MacroText.stmts))
    (hf : ∀ x ∈ defs, x.Fresh tool.dialect tool.dialect.init) (hrun : tool.run m (source :: out :: rest) disk = (.ok (), disk')) :
    tool.run m (source' :: out :: rest) disk = (.ok (), disk') := by
  obtain ⟨n, hn⟩ := Nat.exists_eq_add_of_le' hd
  have hmore : ∀ s, assemble tool.dialect (m.view disk) m.depth code tool.dialect.init = (.ok (), s) →
      ∃ t, assemble tool.dialect (m.view disk) m.depth code' tool.dialect.init = (.ok (), t) ∧ SameButMacros s t := by
    rw [hn]; exact fun s hs => C94_include tool _ n h h' hpost hi hsub ha hl ht hf hs
  have file : ∀ {fix : M Unit} {f : Bytes → Except Err Bytes}, Frame fix → fileMain tool.dialect fix f m (source :: out :: rest) disk = (.ok (), disk') →
      fileMain tool.dialect fix f m (source' :: out :: rest) disk = (.ok (), disk') := by
    intro fix f hfix hr
    unfold fileMain at hr ⊢
    rcases hx : runFile tool.dialect fix m (source :: out :: rest) disk with ⟨_ | u, s⟩
    · rw [hx] at hr; cases hr
    · rw [hx] at hr
      obtain ⟨t', g1, g2⟩ := runFile_macros (rest' := out :: rest) hfix h1 h2 hmore hx
      rw [g1]
      dsimp only at hr ⊢
      rw [g2]
      exact hr
  simp only [List.mem_cons, List.not_mem_nil, or_false] at htool
  rcases htool with rfl | rfl | rfl | rfl
  · exact file frame_gba hrun
  · exact file frame_genesis hrun
  · exact file (.pure ()) hrun
  · change nesFiles m _ disk = _ at hrun
    show nesFiles m _ disk = _
    unfold nesFiles at hrun ⊢
    rcases hx : runFile nes (pure ()) m (source :: out :: rest) disk with ⟨_ | u, s⟩
    · rw [hx] at hrun; cases hrun
    · rw [hx] at hrun
      obtain ⟨t', g1, g2⟩ := runFile_macros (tool := .nes) (rest' := out :: rest) (.pure ()) h1 h2 hmore hx
      rw [show runFile nes (pure ()) m (source' :: out :: rest) disk = _ from g1]
      dsimp only at hrun ⊢
      rw [g2]
      exact hrun

/-! ## the classes with directives of their own -/

/-- C34 for every program of the package, those with directives of their own included. -/
theorem C34_tool (tool : Tool) {env : Env} {depth : Nat} {a b : Str} {s s1 : St} {sb : List Stmt} (ha : assemble tool.dialect env depth a s = (.ok (), s1))
    (hclosed : Closed a) (hregion : s1.orgEnd ≤ 0) (hb : tokenize b = .ok sb) :
    (assemble tool.dialect env depth (a ++ '\n' :: b) s).1 = (assemble tool.dialect env depth b s1).1 ∧
    SameRest (assemble tool.dialect env depth b s1).2 (assemble tool.dialect env depth (a ++ '\n' :: b) s).2 ∧
    ((assemble tool.dialect env depth b s1).1 = .ok () →
      SameState (assemble tool.dialect env depth b s1).2 (assemble tool.dialect env depth (a ++ '\n' :: b) s).2) :=
  C34_concat (resp_tool tool env) ha hclosed hregion hb

/-- C35 for every program of the package. -/
theorem C35_tool (tool : Tool) {env : Env} {depth line : Nat} {t arg : Str} {s s' s1 : St} {before after : List Stmt} (ht : IsDirectiveToken tool.dialect t "include")
    (h1 : forEach (before ++ [⟨.directive, [t, arg], line⟩]) (execStmt tool.dialect env depth (assemble tool.dialect env depth)) s = (.ok (), s1))
    (hregion : s1.orgEnd ≤ 0)
    (h : execStmts tool.dialect env depth (assemble tool.dialect env depth) (before ++ [⟨.directive, [t, arg], line⟩] ++ after) s = (.ok (), s')) :
    ∃ sb code stmts s'', forEach before (execStmt tool.dialect env depth (assemble tool.dialect env depth)) s = (.ok (), sb) ∧
      env.text (fileName (substituteWithDict [arg] sb.defines 0).head!) = some code ∧ tokenize code = .ok stmts ∧
      execStmts tool.dialect env depth (assemble tool.dialect env depth) (before ++ stmts ++ after) s = (.ok (), s'') ∧ SameState s' s'' :=
  C35_inline (resp_tool tool env) ht (tool_noOwn tool env _ (by simp)) h1 hregion h

/-! ## examples -/

/-- A library of two macros and a program. -/
def libraryFiles : Env :=
  { text := fun n =>
      if n = "lib.s".toList then some ".macro inc16 a\ninc a\n.endmacro\n\n.MACRO wait\nnop\nwait\n.endmacro\n".toList
      else if n = "main.s".toList then some "start:\nlda #1\n.macro wait\ninx\n.endmacro\nwait\njmp start\n".toList
      else none }

def libraryDefs : List MacroText :=
  [⟨".macro".toList, ["inc16".toList, "a".toList], [⟨.instr, ["inc".toList, "a".toList], 2⟩], ".endmacro".toList, [], 1, 3⟩,
    ⟨".MACRO".toList, ["wait".toList], [⟨.instr, ["nop".toList], 6⟩, ⟨.instr, ["wait".toList], 7⟩], ".endmacro".toList, [], 5, 8⟩]

example : build mos6502 libraryFiles 4 ["lib.s".toList, "main.s".toList] = .ok [0xA9, 0x01, 0xE8, 0x4C, 0x00, 0x00] := by
  refine C94_library .mos6502 libraryFiles 2 (defs := libraryDefs) (code := ".macro inc16 a\ninc a\n.endmacro\n\n.MACRO wait\nnop\nwait\n.endmacro\n".toList) rfl
    (by decide +kernel) ?_ (by decide +kernel)
  intro m hm
  simp only [libraryDefs, List.mem_cons, List.not_mem_nil, or_false] at hm
  rcases hm with rfl | rfl
  · exact ⟨by decide +kernel, by decide +kernel, by decide, "inc16".toList, ["a".toList], by decide +kernel, rfl, rfl⟩
  · exact ⟨by decide +kernel, by decide +kernel, by decide, "wait".toList, [], by decide +kernel, rfl, rfl⟩

/-- The definition of a macro in the middle of a program. -/
example : ∃ t', assemble mos6502 {} 4 "nop\n.macro twice a\nlda a\nlda a\n.endmacro\nrts\n".toList mos6502.init = (.ok (), t') ∧
    SameButMacros (assemble mos6502 {} 4 "nop\nrts\n".toList mos6502.init).2 t' := by
  refine C94_definition .mos6502 {} 2 (code := "nop\nrts\n".toList) (pre := [⟨.instr, ["nop".toList], 1⟩]) (post := [⟨.instr, ["rts".toList], 2⟩])
    (pre' := [⟨.instr, ["nop".toList], 1⟩]) (post' := [⟨.instr, ["rts".toList], 6⟩])
    (m := ⟨".macro".toList, ["twice".toList, "a".toList], [⟨.instr, ["lda".toList, "a".toList], 3⟩, ⟨.instr, ["lda".toList, "a".toList], 4⟩], ".endmacro".toList, [], 2, 5⟩)
    (by decide +kernel) (by decide +kernel) rfl rfl (s1 := { mos6502.init with bytes := [0xEA], counter := 1 }) rfl rfl
    ⟨by decide +kernel, by decide +kernel, by decide, "twice".toList, ["a".toList], by decide +kernel, rfl, rfl⟩ rfl

/-- A macro with the name of an instruction takes its place. -/
example : build mos6502 { text := fun n => if n = "lib".toList then some ".macro nop\nrts\n.endmacro".toList else some "nop".toList } 4 ["main".toList] = .ok [0xEA] ∧
    build mos6502 { text := fun n => if n = "lib".toList then some ".macro nop\nrts\n.endmacro".toList else some "nop".toList } 4 ["lib".toList, "main".toList] =
      .ok [0x60] := by decide +kernel

/-- Files for a PlayStation program that includes a library. -/
def libraryPsx : Env :=
  { text := fun n =>
      if n = "lib.s".toList then some ".macro twice a\naddu a, a, a\n.endmacro\n".toList
      else if n = "plain.s".toList then some "start:\naddu $t0, $t1, $t2\n.dd start+4\n".toList
      else if n = "main.s".toList then some ".include \"lib.s\"\nstart:\naddu $t0, $t1, $t2\n.dd start+4\n".toList
      else none }

example (disk : Disk) (m : Machine) (hv : m.view disk = libraryPsx) (hd : 3 ≤ m.depth) {disk' : Disk}
    (hrun : Tool.psx.run m ["plain.s".toList, "out".toList] disk = (.ok (), disk')) : Tool.psx.run m ["main.s".toList, "out".toList] disk = (.ok (), disk') := by
  refine C94_include_run .psx (by decide) m hd (t := ".include".toList) (arg := "\"lib.s\"".toList) (a := "\"lib.s\"".toList) (line := 1)
    (code := "start:\naddu $t0, $t1, $t2\n.dd start+4\n".toList) (code' := ".include \"lib.s\"\nstart:\naddu $t0, $t1, $t2\n.dd start+4\n".toList) (lib := ".macro twice a\naddu a, a, a\n.endmacro\n".toList)
    (post := [⟨.label, ["start".toList], 1⟩, ⟨.instr, ["addu".toList, "$t0".toList, "$t1".toList, "$t2".toList], 2⟩, ⟨.directive, [".dd".toList, "start+4".toList], 3⟩])
    (post' := [⟨.label, ["start".toList], 2⟩, ⟨.instr, ["addu".toList, "$t0".toList, "$t1".toList, "$t2".toList], 3⟩, ⟨.directive, [".dd".toList, "start+4".toList], 4⟩])
    (defs := [⟨".macro".toList, ["twice".toList, "a".toList], [⟨.instr, ["addu".toList, "a".toList, "a".toList, "a".toList], 2⟩], ".endmacro".toList, [], 1, 3⟩])
    (by rw [hv]; rfl) (by rw [hv]; rfl) (by decide +kernel) (by decide +kernel) (by decide +kernel) (by unfold IsDirectiveToken; decide +kernel) (by decide +kernel) (by decide)
    (by rw [hv]; rfl) (by decide +kernel) ?_ hrun
  intro x hx
  cases List.mem_singleton.1 hx
  exact ⟨by decide +kernel, by decide +kernel, by decide, "twice".toList, ["a".toList], by decide +kernel, Option.isNone_iff_eq_none.1 (by decide +kernel), rfl⟩

/-- The program without the library runs. -/
example : build Tool.psx.dialect libraryPsx 3 ["plain.s".toList] = .ok [0x21, 0x40, 0x2A, 0x01, 0x04, 0x00, 0x00, 0x00] := by decide +kernel

theorem two_parts (tool : Tool) {env : Env} {depth : Nat} {a b : Str} {s : St} {sb : List Stmt} (ha : (assemble tool.dialect env depth a s).1 = .ok ())
    (hclosed : Closed a) (hregion : (assemble tool.dialect env depth a s).2.orgEnd ≤ 0) (hb : tokenize b = .ok sb) :
    (assemble tool.dialect env depth (a ++ '\n' :: b) s).1 = (assemble tool.dialect env depth b (assemble tool.dialect env depth a s).2).1 :=
  (C34_tool tool (Prod.ext ha rfl) hclosed hregion hb).1

/-- A Game Boy source in two parts, the first of which sets up the header. -/
example : (assemble Tool.gameboy.dialect {} 4 (".fill 256\n.cartridge\n.cartridge_title \"A\"".toList ++ '\n' :: "start: jr start\nnop".toList) Tool.gameboy.dialect.init).1 =
    (assemble Tool.gameboy.dialect {} 4 "start: jr start\nnop".toList
      (assemble Tool.gameboy.dialect {} 4 ".fill 256\n.cartridge\n.cartridge_title \"A\"".toList Tool.gameboy.dialect.init).2).1 :=
  two_parts .gameboy (sb := [⟨.label, ["start".toList], 1⟩, ⟨.instr, ["jr".toList, "start".toList], 1⟩, ⟨.instr, ["nop".toList], 2⟩])
    (by decide +kernel) (by decide +kernel) (by decide +kernel) (by decide +kernel)

end Necro
