import Verif.Lemmas.ReportSites
import Verif.Props.Tokenizer
/-!
# C93: the places error messages name
-/

namespace Necro

open Spec
open M (throw get modify lift forEach times)
open RM (raise done seq each of sites)

theorem stands_movable (sources : Option Str → Str → Prop) : Movable (StandsAt sources) := by
  intro file line tokens dict k ⟨code, stmts, h1, h2, st, h3, h4, h5⟩
  exact ⟨code, stmts, h1, h2, st, h3, h4, .step dict k h5⟩

theorem stands_self (sources : Option Str → Str → Prop) (file : Option Str) (code : Str) (stmts : List Stmt) (hs : sources file code) (ht : tokenize code = .ok stmts) :
    ∀ st ∈ stmts, StandsAt sources file st.line st.tokens := fun st h => ⟨code, stmts, hs, ht, st, h, rfl, .same _⟩

theorem fresh_sites (W : Option Str → Nat → List Str → Prop) {s : St} (hm : s.macros = []) : SitesOk W (s, []) :=
  ⟨(fun h => by
    have h' : dget s.macros _ = _ := h
    rw [hm] at h'
    cases h'), (fun h => by
    have h' : dget s.macros _ = _ := h
    rw [hm] at h'
    cases h')⟩

/-- C93: the assembler with the places does exactly what the assembler of the other claims does. -/
theorem C93_same (d : Dialect) (env : Env) (n : Nat) (file : Option Str) (code : Str) (s : St) (cs : Sites) :
    forget (assembleR d env n file code (s, cs)) = assemble d env n code s := assembleR_erases d env n file code (s, cs)

/-- C93: the sources of a program one after the other, likewise. -/
theorem C93_same_sources (d : Dialect) (env : Env) (n : Nat) (names : List Str) (s : St) (cs : Sites) :
    forget (sourcesR d env n names (s, cs)) = forEach names (fun name => do let code ← openFile (env.text name); assemble d env n code) s := by
  unfold sourcesR
  refine Erases.each (fun name => ?_) (s, cs)
  intro x
  rw [bind_eq]
  cases env.text name with
  | none => rfl
  | some code => exact assembleR_erases d env n _ code x

/-- C93: the place in an error message is a line of the file it names: the file is the source or an included one, and it has
a statement at that line with the words in the message, up to replaced names. -/
theorem C93_place (tool : Tool) (env : Env) (n : Nat) (file : Option Str) (code : Str) (s : St) (hm : s.macros = []) {e : Err} {p : Place}
    (h : (assembleR tool.dialect env n file code (s, [])).1 = .error (e, some p)) : StandsAt (SourceOr env file code) p.file p.line p.tokens := by
  have := (safe_assemble (stands_movable (SourceOr env file code)) (mac_tool tool env) (stands_self _) (fun name c hc => .inr ⟨name, rfl, hc⟩) n file code
    (.inl ⟨rfl, rfl⟩) (s, []) (fresh_sites _ hm)).1
  rw [h] at this
  exact this

/-- C93: the same of a program with several sources, where macros of one source are called in another. -/
theorem C93_place_sources (tool : Tool) (env : Env) (n : Nat) (names : List Str) {e : Err} {p : Place}
    (h : (sourcesR tool.dialect env n names (tool.dialect.init, [])).1 = .error (e, some p)) : StandsAt (AnyFile env) p.file p.line p.tokens := by
  have hs : Safe (StandsAt (AnyFile env)) (sourcesR tool.dialect env n names) := by
    unfold sourcesR
    refine .each fun name _ => ?_
    cases hc : env.text name with
    | none => exact .raise _
    | some code =>
      exact safe_assemble (stands_movable (AnyFile env)) (mac_tool tool env) (stands_self _) (fun name c hc => ⟨name, rfl, hc⟩) n _ code ⟨name, rfl, hc⟩
  have := (hs (tool.dialect.init, []) (fresh_sites _ (by cases tool <;> rfl))).1
  rw [h] at this
  exact this

/-- A line of a file is a line of its text: the statement ends after that many line breaks. -/
theorem C93_text {sources : Option Str → Str → Prop} {file : Option Str} {line : Nat} {tokens : List Str} (h : StandsAt sources file line tokens) :
    ∃ code pre c post, sources file code ∧ code ++ ['\n'] = pre ++ c :: post ∧ (c = '\n' ∨ c = '\r' ∨ c = ';' ∨ c = ':') ∧ line = 1 + newlines pre := by
  obtain ⟨code, stmts, h1, h2, st, h3, h4, -⟩ := h
  obtain ⟨i, hi⟩ := List.mem_iff_getElem?.1 h3
  obtain ⟨pre, c, post, t0, t1, g1, g2, -, -, -, -, g3⟩ := C11_line code stmts h2 i st hi
  exact ⟨code, pre, c, post, h1, g1, g2, by rw [← h4]; exact g3⟩

/-! ## the statement that fails is the one named -/

theorem each_prefix {α : Type} (f : α → RM) (pre : List α) (a : α) (post : List α) (x y : St × Sites) (h1 : each pre f x = (.ok (), y))
    {e : Err × Option Place} (h2 : (f a y).1 = .error e) : (each (pre ++ a :: post) f x).1 = .error e := by
  induction pre generalizing x with
  | nil =>
    cases h1
    show (seq (f a) _ y).1 = _
    unfold seq
    rcases hr : f a y with ⟨r, z⟩
    rw [hr] at h2
    cases h2
    rfl
  | cons b pre ih =>
    replace h1 : seq (f b) (each pre f) x = (.ok (), y) := h1
    show (seq (f b) (each (pre ++ a :: post) f) x).1 = _
    unfold seq at h1 ⊢
    rcases hr : f b x with ⟨r, z⟩
    rw [hr] at h1
    cases r with
    | error e' => cases h1
    | ok u => exact ih z h1

theorem stmtR_erases (d : Dialect) (env : Env) (n : Nat) (file : Option Str) (st : Stmt) :
    Erases (execStmtR d env n (assemble d env n) (assembleR d env n) file st) (execStmt d env n (assemble d env n) st) := by
  unfold execStmtR execStmt
  cases st.kind with
  | instr => exact execInstrR_erases d n _ _ _
  | directive => exact execDirectiveR_erases d env (assembleR_erases d env n) _ _
  | label => exact .of _ _

theorem fails_report {d : Dialect} {env : Env} {n : Nat} {file : Option Str} {code : Str} {s s1 : St} {st : Stmt} {e : Err} (h : FailsAt d env n code s st s1 e) (cs : Sites)
    {p : Option Place} (hp : ∀ cs', (execStmtR d env n (assemble d env n) (assembleR d env n) file st (s1, cs')).1 = .error (e, p)) :
    (assembleR d env (n + 1) file code (s, cs)).1 = .error (e, p) := by
  obtain ⟨⟨pre, post, ht, hr⟩, hf⟩ := h
  unfold assembleR
  rw [ht]
  dsimp only
  have he := Erases.each (l := pre) (fun st => stmtR_erases d env n file st) (s, cs)
  rw [hr] at he
  rcases hx : each pre (execStmtR d env n (assemble d env n) (assembleR d env n) file) (s, cs) with ⟨r, y, cs'⟩
  rw [hx] at he
  cases r with
  | error e' => cases congrArg Prod.fst he
  | ok u =>
    have : y = s1 := congrArg Prod.snd he
    subst this
    have h2 := each_prefix _ pre st post _ _ hx (hp cs')
    unfold seq at *
    rcases hz : each (pre ++ st :: post) (execStmtR d env n (assemble d env n) (assembleR d env n) file) (s, cs) with ⟨r, z⟩
    rw [hz] at h2
    cases h2
    rfl

/-- C93: an instruction that cannot be assembled (no macro, outside a macro definition) is named with its own line and its words
after replacing the defined names, whatever the error is. -/
theorem C93_instruction {d : Dialect} {env : Env} {n : Nat} {file : Option Str} {code : Str} {s s1 : St} {st : Stmt} {e : Err} (h : FailsAt d env (n + 1) code s st s1 e) (cs : Sites)
    (hk : st.kind = .instr) (hi : s1.recording = none) {t : Str} {rest : List Str} (hw : substituteWithDict st.tokens s1.defines 0 = t :: rest)
    (hm : dget s1.macros (d.key t) = none) : (assembleR d env (n + 2) file code (s, cs)).1 = .error (e, some ⟨file, st.line, t :: rest⟩) := by
  refine fails_report h cs fun cs' => ?_
  have he := stmtR_erases d env (n + 1) file st (s1, cs')
  have hf := h.fails
  rw [← he] at hf
  unfold execStmtR execInstrR at *
  rw [hk] at *
  dsimp only at *
  rw [hi] at *
  dsimp only at *
  rw [hw] at *
  dsimp only at *
  rw [hm] at *
  dsimp only at *
  replace hf : (forget (of (encodeLine d t (t :: rest)) (fun _ => some ⟨file, st.line, t :: rest⟩) (s1, cs'))).1 = .error e := hf
  show (of (encodeLine d t (t :: rest)) (fun _ => some ⟨file, st.line, t :: rest⟩) (s1, cs')).1 = _
  unfold of at *
  rcases hr : encodeLine d t (t :: rest) s1 with ⟨r, z⟩
  simp only [hr] at hf ⊢
  cases r with
  | ok u => cases hf
  | error e' => cases hf; rfl

/-- C93: a directive that fails (other than a good `.include`) is named with its own line if its error is one of those with a
place. -/
theorem C93_directive {d : Dialect} {env : Env} {n : Nat} {file : Option Str} {code : Str} {s s1 : St} {st : Stmt} {e : Err} (h : FailsAt d env n code s st s1 e) (cs : Sites)
    (hk : st.kind = .directive) {t : Str} {rest : List Str} (hw : substituteWithDict st.tokens s1.defines 1 = t :: rest)
    (hn : ¬ (d.directives env (d.key (t.drop 1)) = none ∧ d.key (t.drop 1) = d.key "include".toList)) :
    (assembleR d env (n + 1) file code (s, cs)).1 = .error (e, directivePlace d (d.key (t.drop 1)) ⟨file, st.line, t :: rest⟩ e) := by
  refine fails_report h cs fun cs' => ?_
  have hf := h.fails
  unfold execStmt at hf
  unfold execStmtR execDirectiveR
  rw [hk] at *
  dsimp only at *
  rw [hw]
  dsimp only
  rw [if_neg (fun h => hn ⟨by simpa using h.1, h.2⟩)]
  unfold seq of
  dsimp only
  rcases hr : execDirective d env (assemble d env n) st.tokens s1 with ⟨r, z⟩
  rw [hr] at hf
  cases r with
  | ok u => cases hf
  | error e' => cases hf; rfl

/-- C93: a label that cannot be defined because of its name, or in the definition of a macro, is named with its own line. -/
theorem C93_label {d : Dialect} {env : Env} {n : Nat} {file : Option Str} {code : Str} {s s1 : St} {st : Stmt} {e : Err} (h : FailsAt d env n code s st s1 e) (cs : Sites)
    (hk : st.kind = .label) (he : e = .labelNotAllowedInMacro ∨ e = .labelAlreadyDefined ∨ e = .invalidLabel) :
    (assembleR d env (n + 1) file code (s, cs)).1 = .error (e, some ⟨file, st.line, st.tokens⟩) := by
  refine fails_report h cs fun cs' => ?_
  have hf := h.fails
  unfold execStmt at hf
  unfold execStmtR
  rw [hk] at *
  dsimp only at *
  unfold of
  dsimp only
  rcases hr : execLabel d st.tokens s1 with ⟨r, z⟩
  rw [hr] at hf
  cases r with
  | ok u => cases hf
  | error e' =>
    cases hf
    rcases he with rfl | rfl | rfl <;> rfl

/-! ## examples -/

/-- A program in two files. -/
def reportFiles : Env :=
  { text := fun n =>
      if n = "main.s".toList then some ".define five 5\n.include \"lib.s\"\nlda #five\ntwice 3\n".toList
      else if n = "lib.s".toList then some "; macros\n.macro twice a\nlda #a\nldq a\n.endmacro\n".toList
      else none }

/-- The line of the macro, in the file of the macro, with the argument put in. -/
example : (sourcesR (Tool.dialect .mos6502) reportFiles 9 ["main.s".toList] (mos6502.init, [])).1 =
    .error (.unknownInstruction, some ⟨some "lib.s".toList, 4, ["ldq".toList, "3".toList]⟩) := by decide +kernel

example : StandsAt (AnyFile reportFiles) (some "lib.s".toList) 4 ["ldq".toList, "3".toList] :=
  C93_place_sources .mos6502 reportFiles 9 ["main.s".toList] (e := .unknownInstruction)
    (p := ⟨some "lib.s".toList, 4, ["ldq".toList, "3".toList]⟩) (by decide +kernel)

/-- The instruction that fails is named. -/
example : (assembleR mos6502 {} 4 none "nop\n.define x y\n\nldq x x\n".toList (mos6502.init, [])).1 =
    .error (.unknownInstruction, some ⟨none, 4, ["ldq".toList, "y".toList, "y".toList]⟩) := by
  refine C93_instruction (s1 := { mos6502.init with bytes := [0xEA], counter := 1, defines := [("x".toList, "y".toList)] })
    ⟨⟨[⟨.instr, ["nop".toList], 1⟩, ⟨.directive, [".define".toList, "x".toList, "y".toList], 2⟩], [], by decide +kernel, rfl⟩, by decide +kernel⟩ []
    (st := ⟨.instr, ["ldq".toList, "x".toList, "x".toList], 4⟩) rfl rfl (t := "ldq".toList) (rest := ["y".toList, "y".toList]) (by decide +kernel) (by decide +kernel)

/-- An error without a place: the number of a directive. -/
example : (assembleR mos6502 {} 4 none "nop\n.org 99999999999999999999999\n".toList (mos6502.init, [])).1 = .error (.notInBitRange, none) := by decide +kernel

/-- A missing argument of a macro is an `IndexError` that names no line. -/
example : (assembleR mos6502 {} 4 none ".macro m a\nlda a\n.endmacro\nm\n".toList (mos6502.init, [])).1 = .error (.indexError, none) := by decide +kernel

/-- A label twice. -/
example : (assembleR mos6502 {} 4 none "a:\nnop\na:\n".toList (mos6502.init, [])).1 = .error (.labelAlreadyDefined, some ⟨none, 3, ["a".toList]⟩) := by decide +kernel

end Necro
