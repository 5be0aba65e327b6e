import Verif.Spec.Split
import Verif.Props.Unroll
/-!
# Lines of data may be split, and their directives have several names (C101)
-/

namespace Necro
open Spec
open M (throw get modify lift forEach times)

variable {d : Dialect} {env : Env} {rec : Str → M Unit} {depth : Nat}

/-- What is done with an item of so many bytes. -/
def sizedItem (d : Dialect) (size : Nat) : Str → M Unit := if size = 1 then dbItem d else if size = 2 then dwItem d else ddItem d

/-- The program has no directives of its own with the names of those for data. -/
def PlainData (d : Dialect) (env : Env) : Prop := ∀ p ∈ dataSizes, d.directives env (d.key p.1.toList) = none

theorem data_item (hc : PlainData d env) {size : Nat} {p : DataLine} (hp : p.Has d size) (args : List Str) (s : St) :
    execDirective d env rec (p.token :: args) s = forEach (substituteWithDict args s.defines 0) (sizedItem d size) s := by
  obtain ⟨name, hn, ht⟩ := hp
  have hc' := hc _ hn
  dsimp only at hc'
  simp only [dataSizes, List.mem_cons, Prod.mk.injEq, List.not_mem_nil, or_false] at hn
  rcases hn with ⟨rfl, rfl⟩ | ⟨rfl, rfl⟩ | ⟨rfl, rfl⟩ | ⟨rfl, rfl⟩ | ⟨rfl, rfl⟩ | ⟨rfl, rfl⟩ | ⟨rfl, rfl⟩
  · rw [exec_builtin (p := ("db", directiveDb d)) (by simp [builtinDirective]) hc' ht]; rfl
  · rw [exec_builtin (p := ("byte", directiveDb d)) (by simp [builtinDirective]) hc' ht]; rfl
  · rw [exec_builtin (p := ("dw", directiveDw d)) (by simp [builtinDirective]) hc' ht]; rfl
  · rw [exec_builtin (p := ("word", directiveDw d)) (by simp [builtinDirective]) hc' ht]; rfl
  · rw [exec_builtin (p := ("dd", directiveDd d)) (by simp [builtinDirective]) hc' ht]; rfl
  · rw [exec_builtin (p := ("dl", directiveDd d)) (by simp [builtinDirective]) hc' ht]; rfl
  · rw [exec_builtin (p := ("dword", directiveDd d)) (by simp [builtinDirective]) hc' ht]; rfl

theorem items_defines {size : Nat} {p : DataLine} (hp : p.Has d size) {args : List Str} {s s' : St} (h : forEach args (sizedItem d size) s = (.ok (), s')) : s'.defines = s.defines := by
  have done : ∀ {enc pack}, GoodPack d size enc pack → forEach args (dataItem d size enc pack) s = (.ok (), s') → s'.defines = s.defines := by
    intro enc pack g h
    obtain ⟨items, -, -, rfl⟩ := dataRow_ok g _ _ _ h
    rw [placeItems_rest]
  obtain ⟨name, hn, -⟩ := hp
  simp only [dataSizes, List.mem_cons, Prod.mk.injEq, List.not_mem_nil, or_false] at hn
  rcases hn with ⟨rfl, rfl⟩ | ⟨rfl, rfl⟩ | ⟨rfl, rfl⟩ | ⟨rfl, rfl⟩ | ⟨rfl, rfl⟩ | ⟨rfl, rfl⟩ | ⟨rfl, rfl⟩
  · exact done (goodPack_db d) h
  · exact done (goodPack_db d) h
  · exact done (goodPack_dw d) h
  · exact done (goodPack_dw d) h
  · exact done (goodPack_dd d) h
  · exact done (goodPack_dd d) h
  · exact done (goodPack_dd d) h

/-- A line of data and its items on several lines do the very same. -/
theorem data_lines (hc : PlainData d env) {size : Nat} {p : DataLine} (hp : p.Has d size) : ∀ {ps : List DataLine} {items : List Str} {ls : List Stmt}, (∀ q ∈ ps, q.Has d size) →
    ps.flatMap (·.items) = items → ls.map content = ps.map (fun q => (.directive, q.token :: q.items)) → ∀ s,
    forEach ls (execStmt d env depth rec) s = execDirective d env rec (p.token :: items) s := by
  intro ps
  induction ps with
  | nil =>
    intro items ls _ hi hl s
    cases ls with
    | nil =>
      rw [← hi, data_item hc hp]
      rfl
    | cons x ls => cases hl
  | cons q ps ih =>
    intro items ls hq hi hl s
    cases ls with
    | nil => cases hl
    | cons x ls =>
      simp only [List.map_cons, List.cons.injEq] at hl
      obtain ⟨hx, hl⟩ := hl
      have hk : x.kind = .directive := congrArg Prod.fst hx
      have ht : x.tokens = q.token :: q.items := congrArg Prod.snd hx
      have e1 : execStmt d env depth rec x s = execDirective d env rec (q.token :: q.items) s := by
        unfold execStmt
        rw [hk, ht]
      rw [forEach_cons, e1, data_item hc (hq q (by simp)), data_item hc hp, ← hi, List.flatMap_cons]
      rw [show substituteWithDict (q.items ++ ps.flatMap (·.items)) s.defines 0 = substituteWithDict q.items s.defines 0 ++ substituteWithDict (ps.flatMap (·.items)) s.defines 0 from by
        simp [substituteWithDict], forEach_append]
      rcases hr : forEach (substituteWithDict q.items s.defines 0) (sizedItem d size) s with ⟨_ | _, s'⟩
      · rfl
      · dsimp only
        rw [ih (fun x hx => hq x (by simp [hx])) rfl hl s', data_item hc hp, items_defines hp hr]

theorem resp_respelled (hd : PlainData d env) (hc : CustomResp d env) (hr : ∀ c, Resp (rec c) (rec c)) {l : List Stmt} {k : List (Kind × List Str)} (h : Respelled d l k) :
    ∀ {l' : List Stmt}, l'.map content = k → Resp (forEach l (execStmt d env depth rec)) (forEach l' (execStmt d env depth rec)) := by
  induction h with
  | nil =>
    intro l' hl
    cases l' with
    | nil => exact resp_pure ()
    | cons _ _ => cases hl
  | keep st _ ih =>
    intro l' hl
    cases l' with
    | nil => cases hl
    | cons x l' =>
      simp only [List.map_cons, List.cons.injEq] at hl
      exact resp_bind (resp_execStmt hc hr depth hl.1.symm) fun _ => ih hl.2
  | @data l k size p line ps hp hq hi _ ih =>
    intro l' hl
    obtain ⟨a, b, rfl, ha, hb⟩ := List.map_eq_append_iff.1 hl
    refine ⟨fun s t hst => ?_⟩
    have e := (resp_bind (m := forEach a (execStmt d env depth rec)) (m' := forEach a (execStmt d env depth rec)) (resp_stmts hc hr depth rfl) fun _ => ih hb).eq s t hst
    have e1 : forEach (⟨.directive, p.token :: p.items, line⟩ :: l) (execStmt d env depth rec) s = (forEach a (execStmt d env depth rec) >>= fun _ => forEach l (execStmt d env depth rec)) s := by
      rw [forEach_cons, bind_eq, data_lines hd hp hq hi ha]
      rw [show execStmt d env depth rec ⟨.directive, p.token :: p.items, line⟩ s = execDirective d env rec (p.token :: p.items) s from rfl]
      rcases execDirective d env rec (p.token :: p.items) s with ⟨_ | _, s'⟩ <;> rfl
    have e2 : forEach (a ++ b) (execStmt d env depth rec) t = (forEach a (execStmt d env depth rec) >>= fun _ => forEach b (execStmt d env depth rec)) t := by
      rw [forEach_append, bind_eq]
      rcases forEach a (execStmt d env depth rec) t with ⟨_ | _, s'⟩ <;> rfl
    rw [e1, e2]
    exact e

/-- Whole sources end in the same observable state. -/
theorem execStmts_same_of {l l' : List Stmt} (hl : Resp (forEach l (execStmt d env depth rec)) (forEach l' (execStmt d env depth rec))) {s t : St} (h : Alike s t) :
    (execStmts d env depth rec l s).1 = (execStmts d env depth rec l' t).1 ∧
    ((execStmts d env depth rec l s).1 = .ok () → SameState (execStmts d env depth rec l s).2 (execStmts d env depth rec l' t).2) := by
  have h0 := (resp_bind hl fun _ => resp_bind (resp_frame (frame_finalFill d) (cur_finalFill d)) fun _ => resp_closeSection).eq s t h
  refine ⟨h0.1, fun hok => h0.2.same ?_⟩
  have h1 := hl.eq s t h
  unfold execStmts at hok
  rw [bind_eq] at hok ⊢
  rw [bind_eq]
  cases hs : forEach l (execStmt d env depth rec) s with
  | mk r s1 =>
  cases ht : forEach l' (execStmt d env depth rec) t with
  | mk r' t1 =>
  rw [hs, ht] at h1
  rw [hs] at hok
  simp only at h1
  obtain ⟨rfl, h2⟩ := h1
  cases r with
  | error e => cases hok
  | ok u =>
    simp only at hok ⊢
    have h3 := (resp_frame (frame_finalFill d) (cur_finalFill d)).eq s1 t1 h2
    rw [bind_eq] at hok ⊢
    rw [bind_eq]
    cases hs2 : finalFill d s1 with
    | mk r s2 =>
    cases ht2 : finalFill d t1 with
    | mk r' t2 =>
    rw [hs2, ht2] at h3
    rw [hs2] at hok
    simp only at h3
    obtain ⟨rfl, h4⟩ := h3
    cases r with
    | error e => cases hok
    | ok u => exact (close_exact h4).2.2 hok

theorem tool_plainData (tool : Tool) (env : Env) : PlainData tool.dialect env := by
  have sms : ∀ base : Dialect, base.caseSensitive = false → ∀ p ∈ dataSizes, (smsOn base).directives env (base.key p.1.toList) = none := by
    intro base hb w hw
    refine class_none hb [("tiles", smsTiles env)] ?_
    rw [upper_key hb, show ([("tiles", smsTiles env)] : List (String × (List Str → M Unit))).map Prod.fst = ["tiles"] from rfl]
    revert w
    decide
  have gb : ∀ base : Dialect, base.caseSensitive = false → ∀ p ∈ dataSizes, (gameboyOn base).directives env (base.key p.1.toList) = none := by
    intro base hb w hw
    refine class_none hb (gameboyDirectives base env) ?_
    rw [upper_key hb, show (gameboyDirectives base env).map Prod.fst = ["cartridge", "cartridge_title", "cartridge_license", "cartridge_cgb", "cartridge_sgb",
      "cartridge_type", "cartridge_destination", "tiles"] from rfl]
    revert w
    decide
  have ns : ∀ p ∈ dataSizes, nes.directives env (mos6502.key p.1.toList) = none := by
    intro w hw
    refine class_none (d := mos6502) rfl (nesDirectives mos6502 env) ?_
    rw [upper_key rfl, show (nesDirectives mos6502 env).map Prod.fst = ["cartridge", "cartridge_prg_roms", "cartridge_chr_roms", "chr_pattern_table"] from rfl]
    revert w
    decide
  cases tool with
  | sms => exact sms _ rfl
  | gameboy => exact gb _ rfl
  | nes => exact ns
  | _ =>
    intro w hw
    simp only [dataSizes, List.mem_cons, List.not_mem_nil, or_false] at hw
    rcases hw with rfl | rfl | rfl | rfl | rfl | rfl | rfl <;> rfl

theorem source_step (d : Dialect) (env : Env) (depth : Nat) (f : Str) (fs : List Str) (u : St) : sourcesM d env depth (f :: fs) u =
    match (openFile (env.text f) >>= fun c => assemble d env depth c) u with
    | (.ok _, u') => sourcesM d env depth fs u'
    | (.error e, u') => (.error e, u') := forEach_cons ..

/-- From states that are the same up to line numbers, the two lists of sources end in such states. -/
theorem respelled_sources (tool : Tool) (depth : Nat) {fs fs' : List Str} (h : RespelledFiles tool.dialect env.text fs fs') : ∀ {s t : St}, SameState s t →
    (sourcesM tool.dialect env depth fs s).1 = (sourcesM tool.dialect env depth fs' t).1 ∧
      ((sourcesM tool.dialect env depth fs s).1 = .ok () → SameState (sourcesM tool.dialect env depth fs s).2 (sourcesM tool.dialect env depth fs' t).2) := by
  have after : ∀ {f f' : Str} {gs gs' : List Str} {s t : St},
      ((openFile (env.text f) >>= fun c => assemble tool.dialect env depth c) s).1 = ((openFile (env.text f') >>= fun c => assemble tool.dialect env depth c) t).1 ∧
      (((openFile (env.text f) >>= fun c => assemble tool.dialect env depth c) s).1 = .ok () →
        SameState ((openFile (env.text f) >>= fun c => assemble tool.dialect env depth c) s).2 ((openFile (env.text f') >>= fun c => assemble tool.dialect env depth c) t).2) →
      (∀ {s t : St}, SameState s t → (sourcesM tool.dialect env depth gs s).1 = (sourcesM tool.dialect env depth gs' t).1 ∧
        ((sourcesM tool.dialect env depth gs s).1 = .ok () → SameState (sourcesM tool.dialect env depth gs s).2 (sourcesM tool.dialect env depth gs' t).2)) →
      (sourcesM tool.dialect env depth (f :: gs) s).1 = (sourcesM tool.dialect env depth (f' :: gs') t).1 ∧
        ((sourcesM tool.dialect env depth (f :: gs) s).1 = .ok () → SameState (sourcesM tool.dialect env depth (f :: gs) s).2 (sourcesM tool.dialect env depth (f' :: gs') t).2) := by
    intro f f' gs gs' s t hfile ih
    rw [source_step, source_step]
    rcases ha : (openFile (env.text f) >>= fun c => assemble tool.dialect env depth c) s with ⟨r, s'⟩
    rcases hb : (openFile (env.text f') >>= fun c => assemble tool.dialect env depth c) t with ⟨r', t'⟩
    rw [ha, hb] at hfile
    obtain ⟨e1, e2⟩ := hfile
    dsimp only at e1 e2
    subst e1
    cases r with
    | error e => exact ⟨rfl, fun e => by cases e⟩
    | ok _ => exact ih (e2 rfl)
  have hc := resp_tool tool env
  have step : ∀ {n : Nat} {c : Str} (u : St), assemble tool.dialect env (n + 1) c u = match tokenize c with
      | .ok l => execStmts tool.dialect env n (assemble tool.dialect env n) l u
      | .error e => (.error e, u) := by
    intro n c u
    rw [assemble, bind_eq, lift_eq]
    cases tokenize c <;> rfl
  have op : ∀ {c : Str} (u : St), (openFile (some c) >>= fun c => assemble tool.dialect env depth c) u = assemble tool.dialect env depth c u := fun _ => rfl
  induction h with
  | nil => intro s t h; exact ⟨rfl, fun _ => h⟩
  | same f _ ih =>
    intro s t h
    refine after ?_ ih
    cases hf : env.text f with
    | none => exact ⟨rfl, fun e => by cases e⟩
    | some c =>
      rw [op, op]
      cases depth with
      | zero => exact ⟨rfl, fun e => by cases e⟩
      | succ n =>
        rw [step, step]
        cases tokenize c with
        | error e => exact ⟨rfl, fun e => by cases e⟩
        | ok l => exact execStmts_same_of (resp_stmts hc (resp_assemble hc n) n rfl) (alike_of_same h)
  | file h1 h2 h3 h4 h5 _ ih =>
    intro s t h
    refine after ?_ ih
    rw [h1, h2, op, op]
    cases depth with
    | zero => exact ⟨rfl, fun e => by cases e⟩
    | succ n =>
      rw [step, step, h3, h4]
      exact execStmts_same_of (resp_respelled (tool_plainData tool env) hc (resp_assemble hc n) h5 rfl) (alike_of_same h)

theorem twins_of_same (tool : Tool) {depth : Nat} {fs fs' : List Str}
    (h : (sourcesM tool.dialect env depth fs tool.dialect.init).1 = (sourcesM tool.dialect env depth fs' tool.dialect.init).1 ∧
      ((sourcesM tool.dialect env depth fs tool.dialect.init).1 = .ok () →
        SameState (sourcesM tool.dialect env depth fs tool.dialect.init).2 (sourcesM tool.dialect env depth fs' tool.dialect.init).2)) : Twins tool.dialect env depth fs fs' := by
  obtain ⟨h1, h2⟩ := h
  refine ⟨_, _, (sourcesM tool.dialect env depth fs' tool.dialect.init).2, rfl, by rw [h1], fun hok => ?_⟩
  have hsec := sections_eq (sectionNames_sources tool env depth fs (s := tool.dialect.init) (by simp [Dialect.init])) (h2 hok).sections
  obtain ⟨x, y, e3, -⟩ := alike_of_same (h2 hok)
  have ey : y = (sourcesM tool.dialect env depth fs tool.dialect.init).2.sections := by
    rw [hsec, e3]
    rfl
  exact ⟨(sourcesM tool.dialect env depth fs tool.dialect.init).2.defines, x, by rw [e3, ey]; rfl⟩

theorem same_refl (s : St) : SameState s s := (Alike.refl s).same ⟨rfl, fun _ => rfl⟩

/-- C101: the items of a line of data may be written on several lines, and the directives for data of one size are interchangeable: the
same bytes, or the same error. -/
theorem C101_respelled (tool : Tool) (depth : Nat) {fs fs' : List Str} (h : RespelledFiles tool.dialect env.text fs fs') :
    build tool.dialect env depth fs = build tool.dialect env depth fs' :=
  twins_build tool (twins_of_same tool (respelled_sources tool depth h (same_refl _)))

variable {m : Machine} {disk : Disk}

/-- C101: running a program of the package on the two, the programs that write object files included, does the same. -/
theorem C101_run (tool : Tool) (ht : tool ∉ [Tool.gba, .genesis, .psx, .nes]) {fs fs' : List Str} (h : RespelledFiles tool.dialect (m.view disk).text fs fs') (out : Str) :
    tool.run m (fs ++ [out]) disk = tool.run m (fs' ++ [out]) disk :=
  twins_run tool ht (twins_of_same tool (respelled_sources tool _ h (same_refl _))) out

/-- C101: the programs that take one source; `args` are the output and what else is given. -/
theorem C101_file_run (tool : Tool) (ht : tool ∈ [Tool.gba, .genesis, .psx, .nes]) {f f' : Str} (h : RespelledFiles tool.dialect (m.view disk).text [f] [f']) (args : List Str) :
    tool.run m (f :: args) disk = tool.run m (f' :: args) disk :=
  twins_file tool ht (twins_of_same tool (respelled_sources tool _ h (same_refl _))) args

/-! ## Cases -/

def dataFiles : Env :=
  { text := fun n =>
      if n = "a.s".toList then some ".define v 7\nmain:\n.db 1, v, \"ab\"\n.dw main, end\nend:\n".toList
      else some ".define v 7\nmain:\n.byte 1\n.db v, \"ab\"\n.word main\n.DW end\nend:\n".toList }

theorem dataFiles_respelled : RespelledFiles mos6502 dataFiles.text ["a.s".toList] ["b.s".toList] := by
  refine .file (l := [⟨.directive, [".define".toList, "v".toList, "7".toList], 1⟩, ⟨.label, ["main".toList], 2⟩, ⟨.directive, [".db".toList, "1".toList, "v".toList, "\"ab\"".toList], 3⟩,
      ⟨.directive, [".dw".toList, "main".toList, "end".toList], 4⟩, ⟨.label, ["end".toList], 5⟩])
    (l' := [⟨.directive, [".define".toList, "v".toList, "7".toList], 1⟩, ⟨.label, ["main".toList], 2⟩, ⟨.directive, [".byte".toList, "1".toList], 3⟩,
      ⟨.directive, [".db".toList, "v".toList, "\"ab\"".toList], 4⟩, ⟨.directive, [".word".toList, "main".toList], 5⟩, ⟨.directive, [".DW".toList, "end".toList], 6⟩, ⟨.label, ["end".toList], 7⟩])
    rfl rfl (by decide +kernel) (by decide +kernel) ?_ .nil
  refine .keep _ (.keep _ (.data 1 ⟨".db".toList, ["1".toList, "v".toList, "\"ab\"".toList]⟩ 3 [⟨".byte".toList, ["1".toList]⟩, ⟨".db".toList, ["v".toList, "\"ab\"".toList]⟩] ?_ ?_ rfl
    (.data 2 ⟨".dw".toList, ["main".toList, "end".toList]⟩ 4 [⟨".word".toList, ["main".toList]⟩, ⟨".DW".toList, ["end".toList]⟩] ?_ ?_ rfl (.keep _ .nil))))
  · exact ⟨"db", by simp [dataSizes], by unfold IsDirectiveToken; decide +kernel⟩
  · intro q hq
    simp only [List.mem_cons, List.not_mem_nil, or_false] at hq
    rcases hq with rfl | rfl
    · exact ⟨"byte", by simp [dataSizes], by unfold IsDirectiveToken; decide +kernel⟩
    · exact ⟨"db", by simp [dataSizes], by unfold IsDirectiveToken; decide +kernel⟩
  · exact ⟨"dw", by simp [dataSizes], by unfold IsDirectiveToken; decide +kernel⟩
  · intro q hq
    simp only [List.mem_cons, List.not_mem_nil, or_false] at hq
    rcases hq with rfl | rfl
    · exact ⟨"word", by simp [dataSizes], by unfold IsDirectiveToken; decide +kernel⟩
    · exact ⟨"dw", by simp [dataSizes], by unfold IsDirectiveToken; decide +kernel⟩

example : build mos6502 dataFiles 3 ["a.s".toList] = build mos6502 dataFiles 3 ["b.s".toList] := C101_respelled .mos6502 3 dataFiles_respelled

example : build mos6502 dataFiles 3 ["a.s".toList] = .ok [1#8, 7#8, 0x61#8, 0x62#8, 0#8, 0#8, 8#8, 0#8] := by decide +kernel

end Necro
