import Verif.Props.Inline
/-!
# Definitions and macros as abbreviations: runs of the programs
-/

namespace Necro

open Spec
open M

/-- Other definitions and other macros. -/
def twin (x : List (Str × Str)) (b : List (Str × Macro)) (s : St) : St := aside (s.log, s.exports, x) b s

theorem Aloof.twin {α : Type} {m : M α} (h : Aloof m) (x : List (Str × Str)) (b : List (Str × Macro)) (s : St) : m (Necro.twin x b s) = ((m s).1, Necro.twin x b (m s).2) := by
  obtain ⟨g1, g2, -, -⟩ := h.fields s
  unfold Necro.twin
  rw [h.eq, g1, g2]

/-- The two lists of sources are assembled alike, but for the definitions and the macros that are left. -/
def Twins (d : Dialect) (env : Env) (depth : Nat) (fs fs' : List Str) : Prop :=
  ∃ r s t, sourcesM d env depth fs d.init = (r, s) ∧ sourcesM d env depth fs' d.init = (r, t) ∧ (r = .ok () → ∃ x b, t = twin x b s)

variable {fs fs' : List Str} {env : Env} {depth : Nat}

/-- What is done with the sources afterwards is the same, too. -/
theorem twins_after {d : Dialect} (h : Twins d env depth fs fs') {m : M Unit} (hm : Aloof m) :
    (∃ e s t, (sourcesM d env depth fs >>= fun _ => m) d.init = (.error e, s) ∧ (sourcesM d env depth fs' >>= fun _ => m) d.init = (.error e, t)) ∨
      ∃ x b s, (sourcesM d env depth fs >>= fun _ => m) d.init = (.ok (), s) ∧ (sourcesM d env depth fs' >>= fun _ => m) d.init = (.ok (), twin x b s) := by
  obtain ⟨r, s, t, h1, h2, h3⟩ := h
  rw [bind_eq, bind_eq, h1, h2]
  cases r with
  | error e => exact .inl ⟨e, s, t, rfl, rfl⟩
  | ok u =>
    obtain ⟨x, b, rfl⟩ := h3 rfl
    dsimp only
    rw [hm.twin]
    rcases m s with ⟨e | y, s'⟩
    · exact .inl ⟨e, s', _, rfl, rfl⟩
    · exact .inr ⟨x, b, s', rfl, rfl⟩

theorem twins_build (tool : Tool) (h : Twins tool.dialect env depth fs fs') : build tool.dialect env depth fs = build tool.dialect env depth fs' := by
  have main : ∀ names, mainRun tool.dialect env depth names tool.dialect.init = (sourcesM tool.dialect env depth names >>= fun _ => link tool.dialect .dummy) tool.dialect.init := fun _ => rfl
  unfold build
  rw [main, main]
  rcases twins_after h (aloof_link tool .dummy) with ⟨e, s, t, h1, h2⟩ | ⟨x, b, s, h1, h2⟩ <;> rw [h1, h2] <;> rfl

theorem twins_elf (tool : Tool) (c : ElfCfg) (h : Twins tool.dialect env depth fs fs') : elfBuild c tool.dialect env depth fs = elfBuild c tool.dialect env depth fs' := by
  have main : ∀ names, elfBuild c tool.dialect env depth names =
      match (sourcesM tool.dialect env depth names >>= fun _ => link tool.dialect .elf) tool.dialect.init with | (.ok (), s) => elfFile c s | (.error e, _) => .error e := fun _ => rfl
  rw [main, main]
  rcases twins_after h (aloof_link tool .elf) with ⟨e, s, t, h1, h2⟩ | ⟨x, b, s, h1, h2⟩ <;> rw [h1, h2] <;> rfl

theorem aloof_gbaFix : Aloof gbaFix := by
  have : ∀ l acc, Aloof (gbaLoop l acc) := by
    intro l
    induction l with
    | nil => exact fun acc => .pure _
    | cons i l ih => exact fun acc => .bind (aloof_readByte i) fun b => ih _
  exact .bind (this _ _) fun _ => aloof_setByte _ _

theorem aloof_genesisFix : Aloof genesisFix := by
  have : ∀ n i acc, Aloof (genesisLoop n i acc) := by
    intro n
    induction n with
    | zero => exact fun i acc => .pure _
    | succ n ih => exact fun i acc => .bind (aloof_readByte i) fun b => .bind (aloof_readByte _) fun b => ih _ _
  exact .getBind (fun _ _ _ => rfl) fun s => .bind (this _ _ _) fun _ => .bind (aloof_setByte _ _) fun _ => aloof_setByte _ _

variable {m : Machine} {disk : Disk}

/-- The programs that take several sources. -/
theorem twins_run (tool : Tool) (ht : tool ∉ [Tool.gba, .genesis, .psx, .nes]) (h : Twins tool.dialect (m.view disk) m.depth fs fs') (out : Str) :
    tool.run m (fs ++ [out]) disk = tool.run m (fs' ++ [out]) disk := by
  have main : ∀ {make : Env → Nat → List Str → Except Err Bytes}, make (m.view disk) m.depth fs = make (m.view disk) m.depth fs' →
      assemblerMain make m (fs ++ [out]) disk = assemblerMain make m (fs' ++ [out]) disk := by
    intro make e
    unfold assemblerMain
    simp only [List.getLast?_append, List.getLast?_singleton, Option.some_or, List.dropLast_concat]
    rw [e]
  cases tool with
  | gba | genesis | psx | nes => simp at ht
  | i386Elf | ppcElf | x86Elf => exact main (twins_elf _ _ h)
  | _ => exact main (twins_build _ h)

/-- The programs that take one source. -/
theorem twins_file (tool : Tool) (ht : tool ∈ [Tool.gba, .genesis, .psx, .nes]) {f f' : Str} (h : Twins tool.dialect (m.view disk) m.depth [f] [f']) (args : List Str) :
    tool.run m (f :: args) disk = tool.run m (f' :: args) disk := by
  have shape : ∀ {d : Dialect} {fix : M Unit} {src : Str}, runFile d fix m (src :: args) disk = (sourcesM d (m.view disk) m.depth [src] >>= fun _ => link d .dummy >>= fun _ => fix) d.init := by
    intro d fix src
    show ((sourcesM d (m.view disk) m.depth [src] >>= fun _ => link d .dummy) >>= fun _ => fix) d.init = _
    rw [bind_eq, bind_eq, bind_eq]
    rcases sourcesM d (m.view disk) m.depth [src] d.init with ⟨_ | _, s⟩ <;> rfl
  have file : ∀ {fix : M Unit} {g : Bytes → Except Err Bytes}, Aloof fix → fileMain tool.dialect fix g m (f :: args) disk = fileMain tool.dialect fix g m (f' :: args) disk := by
    intro fix g hfix
    unfold fileMain
    rw [shape, shape]
    rcases twins_after h (.bind (aloof_link tool .dummy) fun _ => hfix) with ⟨e, s, t, h1, h2⟩ | ⟨x, b, s, h1, h2⟩ <;> rw [h1, h2]
    cases args <;> rfl
  cases tool with
  | gba => exact file aloof_gbaFix
  | genesis => exact file aloof_genesisFix
  | psx => exact file (.pure ())
  | nes =>
    show nesFiles m (f :: args) disk = nesFiles m (f' :: args) disk
    unfold nesFiles
    rw [shape, shape]
    have hl : Aloof (link nes .dummy) := aloof_link .nes .dummy
    rcases twins_after (show Twins nes (m.view disk) m.depth [f] [f'] from h) (.bind hl fun _ => .pure ()) with ⟨e, s, t, h1, h2⟩ | ⟨x, b, s, h1, h2⟩ <;> rw [h1, h2]
    cases args <;> rfl
  | _ => simp at ht

theorem twins_expanded (tool : Tool) (h : Expanded tool.dialect env.text tool.dialect.defines tool.dialect.defines fs fs') (depth : Nat) : Twins tool.dialect env depth fs fs' := by
  have hs := along_sources (aloof_tool tool env) (fun w hw => tool_noOwn tool env w (by cases List.mem_singleton.1 hw; simp)) h depth tool.dialect.init rfl (tracks_refl _)
  rw [show putDefs tool.dialect.defines tool.dialect.init = tool.dialect.init from rfl] at hs
  exact ⟨_, _, _, rfl, hs, fun _ => ⟨_, _, rfl⟩⟩

theorem twins_inlined (tool : Tool) {n : Nat} (h : Inlined tool.dialect env.text (n + 1) tool.dialect.defines tool.dialect.defines [] fs fs') : Twins tool.dialect env (n + 2) fs fs' := by
  have hs := level_sources (aloof_tool tool env) (deaf_tool tool env)
    (fun w hw => tool_noOwn tool env w (by simp only [List.mem_cons, List.not_mem_nil, or_false] at hw ⊢; rcases hw with rfl | rfl | rfl <;> simp)) h tool.dialect.init
    ⟨rfl, tracks_refl _, fun k => trivial⟩
  obtain ⟨hs, hrec⟩ := hs
  rw [show lay tool.dialect.defines tool.dialect.init = tool.dialect.init from rfl] at hs
  refine ⟨_, _, _, rfl, hs, fun hok => ⟨tool.dialect.defines, [], ?_⟩⟩
  unfold lay twin aside
  rw [← hrec hok]

/-- C98: running a program of the package on sources with definitions, and on the sources with the definitions put in, does the same:
the same files on disk afterwards, and the same error if there is one. -/
theorem C98_run (tool : Tool) (ht : tool ∉ [Tool.gba, .genesis, .psx, .nes]) {sources sources' : List Str}
    (h : Expanded tool.dialect (m.view disk).text tool.dialect.defines tool.dialect.defines sources sources') (out : Str) :
    tool.run m (sources ++ [out]) disk = tool.run m (sources' ++ [out]) disk :=
  twins_run tool ht (twins_expanded tool h _) out

/-- C98: the programs that take one source; `args` are the output and what else is given. -/
theorem C98_file_run (tool : Tool) (ht : tool ∈ [Tool.gba, .genesis, .psx, .nes]) {file file' : Str}
    (h : Expanded tool.dialect (m.view disk).text tool.dialect.defines tool.dialect.defines [file] [file']) (args : List Str) :
    tool.run m (file :: args) disk = tool.run m (file' :: args) disk :=
  twins_file tool ht (twins_expanded tool h _) args

/-- C99: running a program of the package on sources with macros, and on the sources with the macros written out, does the same. -/
theorem C99_run (tool : Tool) (ht : tool ∉ [Tool.gba, .genesis, .psx, .nes]) {n : Nat} (hd : m.depth = n + 2) {sources sources' : List Str}
    (h : Inlined tool.dialect (m.view disk).text (n + 1) tool.dialect.defines tool.dialect.defines [] sources sources') (out : Str) :
    tool.run m (sources ++ [out]) disk = tool.run m (sources' ++ [out]) disk :=
  twins_run tool ht (hd ▸ twins_inlined tool h) out

/-- C99: the programs that take one source; `args` are the output and what else is given. -/
theorem C99_file_run (tool : Tool) (ht : tool ∈ [Tool.gba, .genesis, .psx, .nes]) {n : Nat} (hd : m.depth = n + 2) {file file' : Str}
    (h : Inlined tool.dialect (m.view disk).text (n + 1) tool.dialect.defines tool.dialect.defines [] [file] [file']) (args : List Str) :
    tool.run m (file :: args) disk = tool.run m (file' :: args) disk :=
  twins_file tool ht (hd ▸ twins_inlined tool h) args

/-! ## Cases -/

example (disk : Disk) (m : Machine) (hv : m.view disk = macroFiles) (hd : m.depth = 4) :
    Tool.mos6502.run m ["a.s".toList, "b.s".toList, "out".toList] disk = Tool.mos6502.run m ["a2.s".toList, "b2.s".toList, "out".toList] disk :=
  C99_run .mos6502 (by decide) (n := 2) hd (sources := ["a.s".toList, "b.s".toList]) (sources' := ["a2.s".toList, "b2.s".toList]) (by rw [hv]; exact macroFiles_inlined) _

/-- The NES program, with the registers it defines; it also writes the files of symbols. -/
example (disk : Disk) (m : Machine) (hv : m.view disk = registerFiles) : Tool.nes.run m ["a.s".toList, "out".toList] disk = Tool.nes.run m ["b.s".toList, "out".toList] disk :=
  C98_file_run .nes (by decide) (by
    rw [hv]
    exact expanded_of (c := ".define ctrl PPUCTRL\nlda PPUSTATUS\nsta ctrl\n".toList) (c' := "lda $2002\nsta $2000\n".toList)
      (b := ("ctrl".toList, "$2000".toList) :: Tool.nes.dialect.defines) rfl rfl (by decide +kernel) .nil) _

/-- An object file: a macro that stores a word, between sections. -/
def wordFiles : Env :=
  { text := fun n =>
      if n = "a.s".toList then some ".macro put r v\nli r, v\n.endmacro\n.section code RX\nmain:\nput r3 7\n.export main\n".toList
      else some ".section code RX\nmain:\nli r3, 7\n.export main\n".toList }

example (disk : Disk) (m : Machine) (hv : m.view disk = wordFiles) (hd : m.depth = 4) :
    Tool.ppcElf.run m ["a.s".toList, "out".toList] disk = Tool.ppcElf.run m ["b.s".toList, "out".toList] disk :=
  C99_run .ppcElf (by decide) (n := 2) hd (sources := ["a.s".toList]) (sources' := ["b.s".toList]) (by
    rw [hv]
    exact inlined_of (c := ".macro put r v\nli r, v\n.endmacro\n.section code RX\nmain:\nput r3 7\n.export main\n".toList) (c' := ".section code RX\nmain:\nli r3, 7\n.export main\n".toList)
      (b := []) (ms' := [("PUT".toList, ["r".toList, "v".toList], [["li".toList, "r".toList, "v".toList]])]) rfl rfl (by decide +kernel) .nil) _

example : (match elfBuild Necro.ppcElf ppc wordFiles 4 ["a.s".toList] with | .ok _ => true | .error _ => false) = true := by decide +kernel

end Necro
