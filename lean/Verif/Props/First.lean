import Verif.Spec.First
import Verif.Props.Report
import Verif.Props.Abbreviate
/-!
# C105: what follows an error does not change the error
-/

namespace Necro

open Spec
open M (throw get modify lift forEach times)
open RM (raise done seq each of sites)

theorem each_stops {α : Type} {f : α → RM} {l : List α} (l' : List α) {x : St × Sites} {r : Err × Option Place} (h : (each l f x).1 = .error r) :
    (each (l ++ l') f x).1 = .error r := by
  induction l generalizing x with
  | nil => cases h
  | cons a l ih =>
    replace h : (seq (f a) (each l f) x).1 = .error r := h
    show (seq (f a) (each (l ++ l') f) x).1 = .error r
    unfold seq at h ⊢
    revert h
    rcases f a x with ⟨_ | _, y⟩ <;> intro h
    · exact h
    · exact ih h

/-- The work at the end of a source raises nothing but a `KeyError`, without a place. -/
theorem end_raises (tool : Tool) {x : St × Sites} {r : Err × Option Place} (h : (seq (of (finalFill tool.dialect)) (of closeSection) x).1 = .error r) :
    r = (.keyError, none) := by
  have hv : tool.dialect.fillValue = 0 := by cases tool <;> rfl
  have hf : ∃ s, finalFill tool.dialect x.1 = (.ok (), s) := by
    unfold finalFill
    rw [bind_eq, get_eq]
    dsimp only
    split
    · split
      · rw [bind_eq, hv]
        have : ∃ b, bytesRep 0 (x.1.orgEnd + 1 - (x.1.org + x.1.counter)) = .ok b := by
          unfold bytesRep
          split
          · exact ⟨_, rfl⟩
          · exact ⟨_, rfl⟩
        obtain ⟨b, hb⟩ := this
        rw [hb]
        exact ⟨_, rfl⟩
      · exact ⟨_, rfl⟩
    · exact ⟨_, rfl⟩
  obtain ⟨s, hs⟩ := hf
  unfold seq of at h
  rw [hs] at h
  dsimp only at h
  unfold closeSection at h
  cases hc : s.curSection with
  | none => rw [hc] at h; cases h
  | some n =>
    rw [hc] at h
    dsimp only at h
    by_cases hn : n = []
    · rw [if_pos hn] at h; cases h
    · rw [if_neg hn] at h
      cases hd : dget s.sections n with
      | none => rw [hd] at h; cases h; rfl
      | some sec => rw [hd] at h; cases h

/-- A text that cannot be split into statements stays one. -/
theorem tokenize_stops {a : Str} (b : Str) {e : Err} (h : tokenize a = .error e) : tokenize (a ++ '\n' :: b) = .error e := by
  unfold tokenize at h ⊢
  have hs : a ++ '\n' :: b ++ ['\n'] = (a ++ ['\n']) ++ (b ++ ['\n']) := by simp
  rw [hs, Tk.run_append]
  cases hr : ({} : Tk).run (a ++ ['\n']) with
  | error e' => rw [hr] at h; exact h
  | ok t => rw [hr] at h; cases h

/-- **C105.**  A source that is rejected is rejected with the same error, at the same place, when lines are added at its end. -/
theorem C105_lines (tool : Tool) (env : Env) (depth : Nat) (file : Option Str) {a b : Str} {stmts : List Stmt} (hc : Closed a) (hb : tokenize b = .ok stmts) {x : St × Sites}
    {r : Err × Option Place} (hr : r ≠ (.keyError, none)) (h : (assembleR tool.dialect env depth file a x).1 = .error r) :
    (assembleR tool.dialect env depth file (a ++ '\n' :: b) x).1 = .error r := by
  cases depth with
  | zero => exact h
  | succ n =>
    unfold assembleR at h ⊢
    cases ha : tokenize a with
    | error e => rw [tokenize_stops b ha]; rw [ha] at h; exact h
    | ok sa =>
      rw [C08_compositional a b sa ha hc, hb]
      rw [ha] at h
      dsimp only at h ⊢
      generalize hl : (stmts.map fun s => { s with line := s.line + (newlines a + 1) } : List Stmt) = l
      rw [seq] at h ⊢
      rcases hy : each sa (execStmtR tool.dialect env n (assemble tool.dialect env n) (assembleR tool.dialect env n) file) x with ⟨e | _, y⟩
      · rw [hy] at h
        cases h
        have := each_stops l (congrArg Prod.fst hy)
        revert this
        rcases each (sa ++ l) (execStmtR tool.dialect env n (assemble tool.dialect env n) (assembleR tool.dialect env n) file) x with ⟨_ | _, z⟩ <;> intro this <;> cases this
        rfl
      · rw [hy] at h
        exact absurd (end_raises tool h) hr

/-- **C105.**  The exception: a file is split into statements before anything else is done, so a colon behind several words comes first, wherever it is. -/
theorem C105_colons (d : Dialect) (env : Env) (depth : Nat) (file : Option Str) {a b : Str} {sa : List Stmt} (ha : tokenize a = .ok sa) (hc : Closed a) {l : Nat}
    (hb : tokenize b = .error (.tokenizerInvalidLabel l)) (x : St × Sites) :
    assembleR d env (depth + 1) file (a ++ '\n' :: b) x = (.error (.tokenizerInvalidLabel (l + (newlines a + 1)), none), x) := by
  unfold assembleR
  rw [C08_compositional a b sa ha hc, hb]
  rfl

/-- **C105.**  A program that is rejected is rejected with the same message when further sources are given. -/
theorem C105_sources {d : Dialect} {env : Env} {depth : Nat} {fs : List Str} {r : Err × Option Place} (h : Reports d env depth fs r) (gs : List Str) :
    Reports d env depth (fs ++ gs) r := each_stops gs h

theorem reports_run {d : Dialect} {env : Env} {depth : Nat} {fs : List Str} {r : Err × Option Place} (h : Reports d env depth fs r) :
    ∃ s, sourcesM d env depth fs d.init = (.error r.1, s) := by
  have e := C93_same_sources d env depth fs d.init []
  unfold Reports at h
  unfold forget at e
  rw [h] at e
  exact ⟨_, e.symm⟩

theorem run_reports {d : Dialect} {env : Env} {depth : Nat} {fs : List Str} {e : Err} {s : St} (h : sourcesM d env depth fs d.init = (.error e, s)) :
    ∃ p, Reports d env depth fs (e, p) := by
  have g := congrArg Prod.fst (C93_same_sources d env depth fs d.init [])
  replace g : (forget (sourcesR d env depth fs (d.init, []))).1 = (sourcesM d env depth fs d.init).1 := g
  rw [h] at g
  unfold forget at g
  unfold Reports
  revert g
  rcases (sourcesR d env depth fs (d.init, [])).1 with ⟨e', p⟩ | _ <;> intro g <;> cases g
  exact ⟨p, rfl⟩

/-- The last source replaced by one with lines added, and any further sources. -/
theorem reports_extended (tool : Tool) {env : Env} {depth : Nat} {fs : List Str} {f f' : Str} {r : Err × Option Place} (h : Reports tool.dialect env depth (fs ++ [f]) r)
    (hr : r.1 ≠ .keyError) (hf : Extended env.text f f') (gs : List Str) : ∃ p, Reports tool.dialect env depth (fs ++ f' :: gs) (r.1, p) := by
  obtain ⟨a, b, stmts, h1, h2, h3, h4⟩ := hf
  obtain ⟨s, hs⟩ := reports_run h
  have key : ∃ s, sourcesM tool.dialect env depth (fs ++ f' :: gs) tool.dialect.init = (.error r.1, s) := by
    unfold sourcesM at hs ⊢
    rw [forEach_append] at hs ⊢
    revert hs
    rcases forEach fs (fun name => do let code ← openFile (env.text name); assemble tool.dialect env depth code) tool.dialect.init with ⟨e | _, s1⟩ <;> intro hs
    · exact ⟨s1, by cases hs; rfl⟩
    · dsimp only at hs ⊢
      rw [forEach_cons] at hs ⊢
      rw [bind_eq] at hs ⊢
      rw [h1] at hs
      rw [h3]
      replace hs : (match assemble tool.dialect env depth a s1 with | (.ok _, s') => forEach [] (fun name => do let code ← openFile (env.text name); assemble tool.dialect env depth code) s' | (.error e, s') => (.error e, s')) = (.error r.1, s) := hs
      show ∃ s, (match assemble tool.dialect env depth (a ++ '\n' :: b) s1 with | (.ok _, s') => forEach gs (fun name => do let code ← openFile (env.text name); assemble tool.dialect env depth code) s' | (.error e, s') => (.error e, s')) = (.error r.1, s)
      have e1 := congrArg Prod.fst (C93_same tool.dialect env depth none a s1 [])
      have e2 := congrArg Prod.fst (C93_same tool.dialect env depth none (a ++ '\n' :: b) s1 [])
      rcases ha : assemble tool.dialect env depth a s1 with ⟨e | _, s2⟩
      · rw [ha] at hs e1
        cases hs
        unfold forget at e1
        rcases hx : (assembleR tool.dialect env depth none a (s1, [])).1 with ⟨e', p⟩ | _
        · simp only [hx] at e1
          cases e1
          have := C105_lines tool env depth none h2 h4 (r := (r.1, p)) (fun q => hr (congrArg Prod.fst q)) hx
          unfold forget at e2
          simp only [this] at e2
          rcases hz : assemble tool.dialect env depth (a ++ '\n' :: b) s1 with ⟨e3 | _, z⟩ <;> rw [hz] at e2 <;> cases e2
          exact ⟨z, rfl⟩
        · simp only [hx] at e1
          cases e1
      · rw [ha] at hs
        cases hs
  obtain ⟨s', hs'⟩ := key
  exact run_reports hs'

theorem twins_reports {d : Dialect} {env : Env} {depth : Nat} {fs fs' : List Str} {e : Err} {p p' : Option Place} (h : Reports d env depth fs (e, p)) (h' : Reports d env depth fs' (e, p')) :
    Twins d env depth fs fs' := by
  obtain ⟨s, hs⟩ := reports_run h
  obtain ⟨t, ht⟩ := reports_run h'
  exact ⟨_, s, t, hs, ht, fun h => by cases h⟩

/-- **C105.**  No output is made of a program that is rejected, whatever follows. -/
theorem C105_build (tool : Tool) {env : Env} {depth : Nat} {fs : List Str} {r : Err × Option Place} (h : Reports tool.dialect env depth fs r) (gs : List Str) :
    build tool.dialect env depth (fs ++ gs) = .error r.1 := by
  obtain ⟨s, hs⟩ := reports_run (C105_sources h gs)
  unfold build
  have : mainRun tool.dialect env depth (fs ++ gs) tool.dialect.init = (sourcesM tool.dialect env depth (fs ++ gs) >>= fun _ => link tool.dialect .dummy) tool.dialect.init := rfl
  rw [this, bind_eq, hs]

/-- **C105.**  The same with lines added to the last source before the further ones. -/
theorem C105_extended (tool : Tool) {env : Env} {depth : Nat} {fs : List Str} {f f' : Str} {r : Err × Option Place} (h : Reports tool.dialect env depth (fs ++ [f]) r)
    (hr : r.1 ≠ .keyError) (hf : Extended env.text f f') (gs : List Str) : build tool.dialect env depth (fs ++ f' :: gs) = .error r.1 := by
  obtain ⟨p, hp⟩ := reports_extended tool h hr hf gs
  have := C105_build tool hp []
  rwa [List.append_nil] at this

variable {m : Machine} {disk : Disk}

/-- **C105.**  Running a program of the package on a rejected program and on one with more behind it does the same. -/
theorem C105_run (tool : Tool) (ht : tool ∉ [Tool.gba, .genesis, .psx, .nes]) {fs : List Str} {f f' : Str} {r : Err × Option Place}
    (h : Reports tool.dialect (m.view disk) m.depth (fs ++ [f]) r) (hr : r.1 ≠ .keyError) (hf : Extended (m.view disk).text f f') (gs : List Str) (out : Str) :
    tool.run m (fs ++ [f] ++ [out]) disk = tool.run m (fs ++ f' :: gs ++ [out]) disk := by
  obtain ⟨p, hp⟩ := reports_extended tool h hr hf gs
  exact twins_run tool ht (twins_reports h hp) out

/-- **C105.**  The programs that take one source; `args` are the output and what else is given. -/
theorem C105_file_run (tool : Tool) (ht : tool ∈ [Tool.gba, .genesis, .psx, .nes]) {f f' : Str} {r : Err × Option Place}
    (h : Reports tool.dialect (m.view disk) m.depth [f] r) (hr : r.1 ≠ .keyError) (hf : Extended (m.view disk).text f f') (args : List Str) :
    tool.run m (f :: args) disk = tool.run m (f' :: args) disk := by
  obtain ⟨p, hp⟩ := reports_extended tool (fs := []) h hr hf []
  exact twins_file tool ht (twins_reports h hp) args

/-! ## Cases -/

/-- A program that is rejected at line 3, the same with lines behind that, which would be rejected for other reasons, and another source. -/
def firstFiles : Env :=
  { text := fun n =>
      if n = "a.s".toList then some "start:\nlda #1\nldq #2 ; no".toList
      else if n = "b.s".toList then some "start:\nlda #1\nldq #2 ; no\nstart:\n.org 1, 2, 3\n.db 'x".toList
      else if n = "c.s".toList then some ".endmacro\n".toList
      else none }

theorem first_extended : Extended firstFiles.text "a.s".toList "b.s".toList :=
  ⟨"start:\nlda #1\nldq #2 ; no".toList, "start:\n.org 1, 2, 3\n.db 'x".toList, _, rfl, by decide +kernel, by decide +kernel, (by decide +kernel :
    tokenize "start:\n.org 1, 2, 3\n.db 'x".toList = .ok [⟨.label, ["start".toList], 1⟩, ⟨.directive, [".org".toList, "1".toList, "2".toList, "3".toList], 2⟩])⟩

example : build (Tool.dialect .mos6502) firstFiles 9 (["b.s".toList, "c.s".toList]) = .error .unknownInstruction :=
  C105_extended .mos6502 (fs := []) (f := "a.s".toList) (r := (.unknownInstruction, some ⟨some "a.s".toList, 3, ["ldq".toList, "#2".toList]⟩)) (by unfold Reports; decide +kernel)
    (by decide) first_extended ["c.s".toList]

/-- The other reasons are reasons. -/
example : build (Tool.dialect .mos6502) firstFiles 9 (["c.s".toList]) = .error .notInMacroRecordingMode := by decide +kernel

/-- A label of two words in a later line comes first. -/
example : (assembleR mos6502 {} 4 none "ldq #2\n\na b:\n".toList (mos6502.init, [])).1 = .error (.tokenizerInvalidLabel 3, none) := by decide +kernel

end Necro
