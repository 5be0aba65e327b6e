import Verif.Model.Asm
/-!
# The place an error message names

An exception raised while a statement is assembled has the words `at line <line> of <file>: <tokens>` in its message when the
statement was given to its constructor (exceptions.py:4-7, statements.py:12-15) or added by `Instruction.assemble`
(statements.py:46).  The functions below are those of `Model/Asm.lean` with the place carried along; a macro body also keeps
the file each of its statements was read from (`Statement.context`).  The rest of the text is not modelled.
-/

namespace Necro

open M (throw)

/-- statements.py:6-15 what `str(statement)` says. -/
structure Place where
  file : Option Str
  line : Nat
  tokens : List Str
deriving DecidableEq, Repr

/-- `context` of the statements in the bodies of the macros. -/
abbrev Sites := List (Str × List (Option Str))

/-- A method of the assembler: an exception comes with the place in its message, if there is one. -/
abbrev RM : Type := St × Sites → Except (Err × Option Place) Unit × (St × Sites)

namespace RM

def raise (e : Err) (p : Option Place := none) : RM := fun x => (.error (e, p), x)

def done : RM := fun x => (.ok (), x)

def seq (m k : RM) : RM := fun x =>
  match m x with
  | (.ok (), y) => k y
  | (.error e, y) => (.error e, y)

/-- `for x in l: f(x)` -/
def each (l : List α) (f : α → RM) : RM :=
  match l with
  | [] => done
  | x :: xs => seq (f x) (each xs f)

/-- A method without a place of its own; `p` says what is added to an exception. -/
def of (m : M Unit) (p : Err → Option Place := fun _ => none) : RM := fun x =>
  match m x.1 with
  | (.ok (), s) => (.ok (), (s, x.2))
  | (.error e, s) => (.error (e, p e), (s, x.2))

def sites (f : St → Sites → Sites) : RM := fun x => (.ok (), (x.1, f x.1 x.2))

end RM

open RM (raise done seq each of sites)

/-- statements.py:36-59: the instruction itself, when it is no macro. -/
def encodeLine (d : Dialect) (t : Str) (tokens : List Str) : M Unit :=
  match d.instrs (d.key t) with
  | none => throw .unknownInstruction
  | some (.fixed blob) => if tokens.length ≠ 1 then throw .invalidOpCodeArguments else appendBytes blob
  | some (.handler f) => do
    let blob ← runHandler d f tokens
    appendBytes blob

/-- The file of statement `idx` of the body of a macro. -/
def siteOf (cs : Sites) (key : Str) (idx : Nat) : Option Str := (((dget cs key).getD [])[idx]?).getD none

/-- macros.py:28-38: one iteration of the loop of `Macro.assemble`.  A missing argument is an `IndexError`, which has no place. -/
def macroStepR (exec : Option Str → StmtRef → Stmt → RM) (key : Str) (params args : List Str) (idx : Nat) : RM := fun x =>
  match dget x.1.macros key with
  | none => raise .keyError none x
  | some m =>
    match m.body[idx]? with
    | none => done x
    | some st =>
      match macroDict params args [] with
      | .error e => raise e none x
      | .ok md =>
        let tokens := substituteWithDict st.tokens md 0
        seq (of (setBodyTokens key idx tokens))
          (seq (exec (siteOf x.2 key idx) (some (key, idx)) { st with tokens := tokens })
            (of (setBodyTokens key idx st.tokens))) x

/-- statements.py:18-59 `Instruction.assemble`: every exception of the instruction itself gets the place of the statement, whose
tokens have been substituted by then (37, 46, 51, 54). -/
def execInstrR (d : Dialect) : Nat → Option Str → StmtRef → Stmt → RM
  | 0, _, _, _ => raise .recursionError
  | depth + 1, file, ref, st => fun x =>
    match x.1.recording with
    | some key =>
      seq (of (recordStmt key st)) (sites fun _ cs => dset cs key ((dget cs key).getD [] ++ [file])) x
    | none =>
      let tokens := substituteWithDict st.tokens x.1.defines 0
      seq (of (writeBack ref tokens))
        (match tokens with
        | [] => raise .indexError
        | t :: _ =>
          match dget x.1.macros (d.key t) with
          | some m => each (List.range m.body.length) (macroStepR (execInstrR d depth) (d.key t) m.args (tokens.drop 1))
          | none => of (encodeLine d t tokens) fun _ => some ⟨file, st.line, tokens⟩) x

/-- Which exceptions of a label have its place (statements.py:106-113): not those of `parse_integer`. -/
def labelPlace (p : Place) : Err → Option Place
  | .labelNotAllowedInMacro | .labelAlreadyDefined | .invalidLabel => some p
  | _ => none

/-- Which exceptions of the directive stored under `key` have its place: those raised with `instr` (assembler.py:170-181,
508-827, gameboy.py:51-150, nes.py:45-112, sms.py:47-67), not those of `parse_integer` (365-380), `change_org` (480-506),
`parse_bytes_or_ascii` (713) and `.bits` (x86.py:1995). -/
def directivePlace (d : Dialect) (key : Str) (p : Place) : Err → Option Place
  | .unknownDirective | .unsupportedNestedMacro | .notInMacroRecordingMode | .unsupportedNestedRepeat | .notInRepeatMode
  | .sectionAlreadyDefined | .symbolAlreadyExported | .platform _ => some p
  | .invalidArgumentsForDirective => if key = d.key "bits".toList then none else some p
  | .addressOverlap => if key = d.key "goto".toList ∨ key = d.key "upto".toList then some p else none
  | .labelNotAllowed =>
    if key = d.key "inccsv".toList ∨ key = d.key "inccsv_le16".toList ∨ key = d.key "incjson".toList then some p else none
  | _ => none

/-- assembler.py:732-737 `directive_include`: the file is the `context` of its statements. -/
def includeR (env : Env) (rec : Option Str → Str → RM) (p : Place) (tokens : List Str) : RM := fun x =>
  match tokens with
  | [_, a] =>
    match stringify a x.1 with
    | (.error e, _) => raise e none x
    | (.ok name, _) =>
      match env.text name with
      | none => raise .fileNotFoundError none x
      | some code => rec (some name) code x
  | _ => raise .invalidArgumentsForDirective (some p) x

/-- statements.py:122-131 `Directive.assemble`.  `.macro` starts an empty body. -/
def execDirectiveR (d : Dialect) (env : Env) (rec : Str → M Unit) (recR : Option Str → Str → RM) (file : Option Str) (st : Stmt) : RM := fun x =>
  let tokens := substituteWithDict st.tokens x.1.defines 1
  match tokens with
  | [] => raise .indexError none x
  | t :: _ =>
    let key := d.key (t.drop 1)
    let p : Place := ⟨file, st.line, tokens⟩
    if (d.directives env key).isNone ∧ key = d.key "include".toList then includeR env recR p tokens x
    else
      seq (of (execDirective d env rec st.tokens) (directivePlace d key p))
        (sites fun s cs =>
          if (d.directives env key).isNone ∧ key = d.key "macro".toList then
            match s.recording with
            | some k => dset cs k []
            | none => cs
          else cs) x

/-- `statement.assemble(self)` -/
def execStmtR (d : Dialect) (env : Env) (depth : Nat) (rec : Str → M Unit) (recR : Option Str → Str → RM) (file : Option Str) (st : Stmt) : RM :=
  match st.kind with
  | .instr => execInstrR d depth file none st
  | .directive => execDirectiveR d env rec recR file st
  | .label => of (execLabel d st.tokens) (labelPlace ⟨file, st.line, st.tokens⟩)

/-- assembler.py:184-210 `assemble(code, context)` -/
def assembleR (d : Dialect) (env : Env) : Nat → Option Str → Str → RM
  | 0, _, _ => raise .recursionError
  | depth + 1, file, code =>
    match tokenize code with
    | .error e => raise e
    | .ok stmts =>
      seq (each stmts (execStmtR d env depth (assemble d env depth) (assembleR d env depth) file))
        (seq (of (finalFill d)) (of closeSection))

/-- assembler.py:212-214 `assemble_file` and 890-891: the sources one after the other. -/
def sourcesR (d : Dialect) (env : Env) (depth : Nat) (names : List Str) : RM :=
  each names fun name =>
    match env.text name with
    | none => raise .fileNotFoundError
    | some code => assembleR d env depth (some name) code

end Necro
