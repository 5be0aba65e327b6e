import Verif.Props.Abbreviate
import Verif.Lemmas.Visits
import Verif.Spec.Woven
/-!
# C99: definitions and macros as abbreviations, with included files
-/

namespace Necro
open Spec
open M (throw get modify lift forEach times)

variable {d : Dialect} {env : Env} {x : List (Str × Str)}

theorem level_source (hc : CustomAloof d env) (hk : CustomDeaf d env) {n : Nat} {b : List (Str × Str)} {ms' : MacroTable} {c c' : Str} {l l' : List Stmt} {s : St} (h3 : tokenize c = .ok l)
    (h4 : tokenize c' = .ok l') (h : Level (forEach l (execStmt d env n (assemble d env n))) (forEach l' (execStmt d env n (assemble d env n))) x (Inv none b ms') s) :
    Level (assemble d env (n + 1) c) (assemble d env (n + 1) c') x (Inv none b ms') s := by
  rw [assemble, assemble, h3, h4]
  show Level (execStmts d env n (assemble d env n) l) (execStmts d env n (assemble d env n) l') x (Inv none b ms') s
  exact .bind h fun s hs => .bind ((aloof_finalFill d).level (deaf_finalFill d) hs) fun s hs => aloof_closeSection.level deaf_closeSection hs

theorem level_woven (hc : CustomAloof d env) (hk : CustomDeaf d env) (hn : ∀ w ∈ ["macro", "endmacro", "define", "include"], d.directives env (d.key w.toList) = none) {n : Nat}
    {a b : List (Str × Str)} {ms ms' : MacroTable} {l l' : List Stmt} (h : Woven d env.text x n a ms l l' b ms') : ∀ s : St, Inv none a ms s →
      Level (forEach l (execStmt d env n (assemble d env n))) (forEach l' (execStmt d env n (assemble d env n))) x (Inv none b ms') s := by
  induction h with
  | lines h hx => exact fun s hs => level_stmts hc hk (fun w hw => hn w (by simp only [List.mem_cons, List.not_mem_nil, or_false] at hw ⊢; rcases hw with rfl | rfl | rfl <;> simp)) _ _ _ _ _ h hx s hs
  | @join n a b c ms ms' ms'' l l' k k' _ _ ih1 ih2 =>
    intro s hs
    have e : ∀ (l k : List Stmt) (s : St), forEach (l ++ k) (execStmt d env n (assemble d env n)) s =
        (forEach l (execStmt d env n (assemble d env n)) >>= fun _ => forEach k (execStmt d env n (assemble d env n))) s := by
      intro l k s
      rw [forEach_append, bind_eq]
      rcases forEach l (execStmt d env n (assemble d env n)) s with ⟨_ | _, s'⟩ <;> rfl
    have hall := Level.bind (f := fun _ => forEach k (execStmt d env n (assemble d env n))) (f' := fun _ => forEach k' (execStmt d env n (assemble d env n))) (ih1 s hs) ih2
    refine ⟨?_, ?_⟩ <;> rw [e]
    · rw [e]; exact hall.same
    · exact hall.post
  | @file n a b ms ms' t t' w w' i i' c c' l l' h1 h2 h3 h4 h5 h6 h7 h8 h9 _ ih =>
    intro s hs
    have hsrc := level_source hc hk h8 h9 (ih s hs)
    have run : ∀ {t w : Str} {i : Nat} {c : Str} {s : St} {w1 : Str}, isNamed d t "include" = true → substituteWithDict [w] s.defines 0 = [w1] → w1 ≠ [] → env.text (fileName w1) = some c →
        execStmt d env (n + 1) (assemble d env (n + 1)) ⟨.directive, [t, w], i⟩ s = assemble d env (n + 1) c s := by
      intro t w i c s w1 g1 g2 g3 g4
      have ht : IsDirectiveToken d t "include" := by unfold isNamed at g1; exact eq_of_beq g1
      rw [execStmt_directive, exec_builtin (p := ("include", directiveInclude env (assemble d env (n + 1)))) (by simp [builtinDirective]) (hn _ (by simp)) ht, g2]
      show directiveInclude env (assemble d env (n + 1)) [t, w1] s = _
      unfold directiveInclude
      rw [bind_eq, show exactlyTwo [t, w1] s = (.ok w1, s) from rfl]
      dsimp only
      rw [bind_eq, stringify_file g3]
      dsimp only
      rw [bind_eq, g4]
      rfl
    have one : ∀ (st : Stmt) (s : St), forEach [st] (execStmt d env (n + 1) (assemble d env (n + 1))) s = execStmt d env (n + 1) (assemble d env (n + 1)) st s := by
      intro st s
      rw [forEach_cons]
      rcases execStmt d env (n + 1) (assemble d env (n + 1)) st s with ⟨_ | _, s'⟩ <;> rfl
    have e1 := run (i := i) (s := s) h1 (tracks_tokens hs.defines [w]) h3 h6
    have e2 := run (i := i') (s := lay x s) (w := w') h2 (own_tokens (own := x) (ts := [w']) (by intro t ht; cases List.mem_singleton.1 ht; exact h5)) h4 h7
    have e1 := (one _ _).trans e1
    have e2 := (one _ _).trans e2
    refine ⟨?_, ?_⟩ <;> rw [e1]
    · rw [e2]; exact hsrc.same
    · exact hsrc.post

theorem level_wovenFiles (hc : CustomAloof d env) (hk : CustomDeaf d env) (hn : ∀ w ∈ ["macro", "endmacro", "define", "include"], d.directives env (d.key w.toList) = none) {n : Nat}
    {a : List (Str × Str)} {ms : MacroTable} {fs fs' : List Str} (h : WovenFiles d env.text n x a ms fs fs') : ∀ s : St, Inv none a ms s →
      Level (sourcesM d env (n + 1) fs) (sourcesM d env (n + 1) fs') x (fun s => s.recording = none) s := by
  induction h with
  | nil => exact fun s hs => ⟨rfl, fun _ => hs.recording⟩
  | @cons a b ms ms' f f' fs fs' c c' l l' h1 h2 h3 h4 h5 _ ih =>
    intro s hs
    have one : Level (openFile (env.text f) >>= assemble d env (n + 1)) (openFile (env.text f') >>= assemble d env (n + 1)) x (Inv none b ms') s := by
      rw [h1, h2]
      exact level_source hc hk h3 h4 (level_woven hc hk hn h5 s hs)
    exact .bind one fun s hs => ih s hs

theorem twins_woven (tool : Tool) {n : Nat} {fs fs' : List Str} (h : WovenFiles tool.dialect env.text n tool.dialect.defines tool.dialect.defines [] fs fs') :
    Twins tool.dialect env (n + 1) fs fs' := by
  have hs := level_wovenFiles (aloof_tool tool env) (deaf_tool tool env)
    (fun w hw => tool_noOwn tool env w (by simp only [List.mem_cons, List.not_mem_nil, or_false] at hw ⊢; rcases hw with rfl | rfl | rfl | rfl <;> simp)) h tool.dialect.init
    ⟨rfl, tracks_refl _, fun k => trivial⟩
  obtain ⟨hs, hrec⟩ := hs
  rw [show lay tool.dialect.defines tool.dialect.init = tool.dialect.init from rfl] at hs
  refine ⟨_, _, _, rfl, hs, fun hok => ⟨tool.dialect.defines, [], ?_⟩⟩
  unfold lay twin aside
  rw [← hrec hok]

/-- C99: a program with definitions, macros and included files, and the program with definitions and macros written out in all the
files, give the same: the same bytes or the same error. -/
theorem C99_include (tool : Tool) {env : Env} {n : Nat} {sources sources' : List Str} (h : WovenFiles tool.dialect env.text n tool.dialect.defines tool.dialect.defines [] sources sources') :
    build tool.dialect env (n + 1) sources = build tool.dialect env (n + 1) sources' :=
  twins_build tool (twins_woven tool h)

/-- C99: runs of the programs that take several sources. -/
theorem C99_include_run (tool : Tool) (ht : tool ∉ [Tool.gba, .genesis, .psx, .nes]) {m : Machine} {disk : Disk} {n : Nat} (hd : m.depth = n + 1) {sources sources' : List Str}
    (h : WovenFiles tool.dialect (m.view disk).text n tool.dialect.defines tool.dialect.defines [] sources sources') (out : Str) :
    tool.run m (sources ++ [out]) disk = tool.run m (sources' ++ [out]) disk :=
  twins_run tool ht (hd ▸ twins_woven tool h) out

/-- C99: runs of the programs that take one source. -/
theorem C99_include_file_run (tool : Tool) (ht : tool ∈ [Tool.gba, .genesis, .psx, .nes]) {m : Machine} {disk : Disk} {n : Nat} (hd : m.depth = n + 1) {file file' : Str}
    (h : WovenFiles tool.dialect (m.view disk).text n tool.dialect.defines tool.dialect.defines [] [file] [file']) (args : List Str) :
    tool.run m (file :: args) disk = tool.run m (file' :: args) disk :=
  twins_file tool ht (hd ▸ twins_woven tool h) args

/-! ## Cases -/

/-- A check of some lines, to be run. -/
def weaves (d : Dialect) (n : Nat) (own a : List (Str × Str)) (ms : MacroTable) (l l' : List Stmt) (b : List (Str × Str)) (ms' : MacroTable) : Bool :=
  (match inlineAll d n none a ms l with
    | some (out, b', ms1) => decide (out = l'.map content) && decide (b' = b) && decide (ms1 = ms')
    | none => false) && l'.all fun st => st.tokens.all fun t => replaced own t == t

theorem woven_lines {d : Dialect} {text : Str → Option Str} {n : Nat} {own a b : List (Str × Str)} {ms ms' : MacroTable} {l l' : List Stmt}
    (h : weaves d (n + 1) own a ms l l' b ms' = true) : Woven d text own (n + 1) a ms l l' b ms' := by
  unfold weaves at h
  cases h5 : inlineAll d (n + 1) none a ms l with
  | none => rw [h5] at h; cases h
  | some r =>
    rw [h5] at h
    obtain ⟨out, b', ms1⟩ := r
    simp only [Bool.and_eq_true, decide_eq_true_eq, List.all_eq_true, beq_iff_eq] at h
    obtain ⟨⟨⟨rfl, rfl⟩, rfl⟩, h6⟩ := h
    exact .lines h5 h6

/-- A library of a definition and a macro that is included by a program, and the same program without them. -/
def wovenTexts : Env :=
  { text := fun n =>
      if n = "a.s".toList then some "start:\n.include \"lib.s\"\nput 7\njmp start\n".toList
      else if n = "lib.s".toList then some ".define port $20\n.macro put v\nlda #v\nsta port\n.endmacro\ninx\n".toList
      else if n = "a2.s".toList then some "start:\n.include 'lib2.s'\nlda #7\nsta $20\njmp start\n".toList
      else if n = "lib2.s".toList then some "inx\n".toList
      else none }

def wovenLine (k : Kind) (ts : List String) (n : Nat) : Stmt := ⟨k, ts.map (·.toList), n⟩

example : build mos6502 wovenTexts 4 ["a.s".toList] = build mos6502 wovenTexts 4 ["a2.s".toList] := by
  refine C99_include .mos6502 (n := 3) ?_
  refine .cons (c := "start:\n.include \"lib.s\"\nput 7\njmp start\n".toList) (c' := "start:\n.include 'lib2.s'\nlda #7\nsta $20\njmp start\n".toList)
    (b := [("port".toList, "$20".toList)]) (ms' := [macroRow "put" ["v"] [["lda", "#v"], ["sta", "port"]]])
    (l := [wovenLine .label ["start"] 1] ++ ([wovenLine .directive [".include", "\"lib.s\""] 2] ++ [wovenLine .instr ["put", "7"] 3, wovenLine .instr ["jmp", "start"] 4]))
    (l' := [wovenLine .label ["start"] 1] ++ ([wovenLine .directive [".include", "'lib2.s'"] 2] ++ [wovenLine .instr ["lda", "#7"] 3, wovenLine .instr ["sta", "$20"] 4, wovenLine .instr ["jmp", "start"] 5]))
    rfl rfl (by decide +kernel) (by decide +kernel) ?_ .nil
  refine .join (b := []) (ms' := []) (woven_lines (by decide +kernel)) (.join (b := [("port".toList, "$20".toList)]) (ms' := [macroRow "put" ["v"] [["lda", "#v"], ["sta", "port"]]]) ?_ (woven_lines (by decide +kernel)))
  refine .file (c := ".define port $20\n.macro put v\nlda #v\nsta port\n.endmacro\ninx\n".toList) (c' := "inx\n".toList)
    (l := [wovenLine .directive [".define", "port", "$20"] 1, wovenLine .directive [".macro", "put", "v"] 2, wovenLine .instr ["lda", "#v"] 3, wovenLine .instr ["sta", "port"] 4,
      wovenLine .directive [".endmacro"] 5, wovenLine .instr ["inx"] 6]) (l' := [wovenLine .instr ["inx"] 1])
    (by decide +kernel) (by decide +kernel) (by decide +kernel) (by decide) (by decide +kernel) (by decide +kernel) (by decide +kernel) (by decide +kernel) (by decide +kernel) (woven_lines (by decide +kernel))

example : build mos6502 wovenTexts 4 ["a.s".toList] = .ok [0xE8, 0xA9, 0x07, 0x85, 0x20, 0x4C, 0x00, 0x00] := by decide +kernel

end Necro
