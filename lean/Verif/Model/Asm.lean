import Verif.Model.State
/-!
# Statements, directives, macros and `assemble`

/repo/necroassembler/assembler.py, statements.py, macros.py.
-/

namespace Necro

open M (throw get modify lift forEach times)

/-- `token[0]`, raising `IndexError` on the empty token. -/
def firstChar (t : Str) : M Char :=
  match t with
  | [] => throw .indexError
  | c :: _ => pure c

/-- `token[1:-1]` -/
def unquote (t : Str) : Str := (t.drop 1).dropLast

/-- `token[0] in ('"', '\'')` -/
def isQuote (c : Char) : Bool := c = '"' || c = '\''

/-- assembler.py:727-730 `stringify` -/
def stringify (t : Str) : M Str := do
  let c ← firstChar t
  if isQuote c then pure (unquote t) else pure t

/-- assembler.py:527-529 `append_assembled_bytes` -/
def appendBytes (blob : Bytes) : M Unit :=
  modify fun s => { s with bytes := s.bytes ++ blob, counter := s.counter + blob.length }

/-- assembler.py:297-308 `add_label_translation` -/
def addReloc (s : St) (r : Reloc) : St :=
  { s with relocs := dset s.relocs (s.bytes.length + r.offset) r }

/-- assembler.py:356-381 as a method. -/
def parseIntegerM (d : Dialect) (tok : Str) (bits : Nat) (signed : Bool) : M (Option Int) :=
  fun s => (parseInteger d.sy s.labels tok bits signed, s)

/-- assembler.py:383-402 as a method. -/
def parseIntegerOrLabelM (d : Dialect) (r : Reloc) (signed : Bool := false) : M Int := fun s =>
  match parseInteger d.sy s.labels r.label r.bitsSize (signed || r.relative != 0) with
  | .error e => (.error e, s)
  | .ok (some v) => (.ok v, s)
  | .ok none => (.ok 0, addReloc s r)

/-- The recurring "parse or reject" idiom:
`x = parse_integer(...); if x is None: raise InvalidArgumentsForDirective`. -/
def parseArg (d : Dialect) (tok : Str) (bits : Nat) : M Int := do
  match ← parseIntegerM d tok bits false with
  | some v => pure v
  | none => throw .invalidArgumentsForDirective

/-! ## macros -/

/-- assembler.py:170-177 `macro_start` -/
def directiveMacro (d : Dialect) (tokens : List Str) : M Unit := do
  let s ← get
  match s.recording with
  | some _ => throw .unsupportedNestedMacro
  | none =>
    match tokens.drop 1 with
    | [] => throw .valueError              -- `self.name, *self.args = tokens`
    | name :: args =>
      let key := d.key name
      modify fun s => { s with macros := dset s.macros key { args := args }, recording := some key }

/-- assembler.py:179-182 `macro_end` -/
def directiveEndMacro : M Unit := do
  let s ← get
  match s.recording with
  | none => throw .notInMacroRecordingMode
  | some _ => modify fun s => { s with recording := none }

/-! ## origin -/

/-- assembler.py:477-506 `change_org`.  The new origin is stored before the overlap
checks, so it stays even when they raise. -/
def changeOrg (d : Dialect) (start stop : Int) : M Unit := fun s =>
  if 0 < stop ∧ stop < start then (.error .addressOverlap, s)
  else
    let s' := { s with org := start, orgEnd := stop, counter := 0 }
    if 0 < s.orgEnd then
      if s.org + s.counter > start then (.error .addressOverlap, s')
      else if start > s.orgEnd then
        match bytesRep d.fillValue ((s.orgEnd + 1) - (s.org + s.counter)) with
        | .error e => (.error e, s')
        | .ok blob => (.ok (), { s' with bytes := s'.bytes ++ blob })
      else if start ≤ s.orgEnd ∧ start > s.org then
        match bytesRep d.fillValue (start - (s.org + s.counter)) with
        | .error e => (.error e, s')
        | .ok blob => (.ok (), { s' with bytes := s'.bytes ++ blob })
      else (.error .addressOverlap, s')
    else (.ok (), s')

/-- assembler.py:508-520 `directive_org` -/
def directiveOrg (d : Dialect) (tokens : List Str) : M Unit := do
  match tokens with
  | [_, a] =>
    let start ← parseArg d a 64
    changeOrg d start 0
  | [_, a, b] =>
    let start ← parseArg d a 64
    let stop ← parseArg d b 64
    changeOrg d start stop
  | _ => throw .invalidArgumentsForDirective

/-! ## defines -/

/-- assembler.py:522-525 `directive_define` -/
def directiveDefine (tokens : List Str) : M Unit :=
  match tokens with
  | [_, n, v] => modify fun s => { s with defines := dset s.defines n v }
  | _ => throw .invalidArgumentsForDirective

/-! ## data -/

/-- assembler.py:717-725 one argument of `directive_db` -/
def dbItem (d : Dialect) (tok : Str) : M Unit := do
  let c ← firstChar tok
  if isQuote c then
    let blob ← lift (encodeAscii (unquote tok))
    appendBytes blob
  else
    let value ← parseIntegerOrLabelM d { label := tok, size := 1, bitsSize := 8 }
    let blob ← lift (packByte [some value])
    appendBytes blob

/-- assembler.py:531-543 one argument of `directive_dw` -/
def dwItem (d : Dialect) (tok : Str) : M Unit := do
  let c ← firstChar tok
  if isQuote c then appendBytes (encodeUtf16 (unquote tok))
  else
    let value ← parseIntegerOrLabelM d { label := tok, size := 2, bitsSize := 16 }
    let blob ← lift (if d.bigEndian then packBe16u [some value] else packLe16u [some value])
    appendBytes blob

/-- assembler.py:545-557 one argument of `directive_dd` -/
def ddItem (d : Dialect) (tok : Str) : M Unit := do
  let c ← firstChar tok
  if isQuote c then appendBytes (encodeUtf32 (unquote tok))
  else
    let value ← parseIntegerOrLabelM d { label := tok, size := 4, bitsSize := 32 }
    let blob ← lift (if d.bigEndian then packBe32u [some value] else packLe32u [some value])
    appendBytes blob

/-- assembler.py:559-577 one argument of `directive_dw_to_ascii`.  A quoted argument
is `int()` of UTF-16 bytes, which start with the byte order mark, so it always raises
`ValueError`. -/
def dwToAsciiItem (d : Dialect) (tok : Str) : M Unit := do
  let c ← firstChar tok
  if isQuote c then throw .valueError
  else
    match ← parseIntegerM d tok 16 false with
    | none =>
      modify fun s => addReloc s { label := tok, size := 2, bitsSize := 16, hook := some 5 }
      appendBytes (List.replicate 5 0#8)
    | some value =>
      let blob ← lift (encodeAscii (intStr value))
      appendBytes blob

/-- assembler.py:681-699 one argument of `directive_db_to_ascii` -/
def dbToAsciiItem (d : Dialect) (tok : Str) : M Unit := do
  let c ← firstChar tok
  if isQuote c then
    let _ ← lift (encodeAscii (unquote tok))
    match pyInt 10 (unquote tok) with
    | none => throw .valueError
    | some v =>
      let blob ← lift (encodeAscii (intStr v))
      appendBytes blob
  else
    match ← parseIntegerM d tok 8 false with
    | none =>
      modify fun s => addReloc s { label := tok, size := 1, bitsSize := 8, hook := some 3 }
      appendBytes (List.replicate 3 0#8)
    | some value =>
      let blob ← lift (encodeAscii (intStr value))
      appendBytes blob

/-- assembler.py:717-725 -/
def directiveDb (d : Dialect) (tokens : List Str) : M Unit := forEach (tokens.drop 1) (dbItem d)
/-- assembler.py:531-543 -/
def directiveDw (d : Dialect) (tokens : List Str) : M Unit := forEach (tokens.drop 1) (dwItem d)
/-- assembler.py:545-557 -/
def directiveDd (d : Dialect) (tokens : List Str) : M Unit := forEach (tokens.drop 1) (ddItem d)
/-- assembler.py:681-699 -/
def directiveDbToAscii (d : Dialect) (tokens : List Str) : M Unit :=
  forEach (tokens.drop 1) (dbToAsciiItem d)
/-- assembler.py:559-577 -/
def directiveDwToAscii (d : Dialect) (tokens : List Str) : M Unit :=
  forEach (tokens.drop 1) (dwToAsciiItem d)
/-- assembler.py:701-703 -/
def directiveDbToAsciiz (d : Dialect) (tokens : List Str) : M Unit := do
  directiveDbToAscii d tokens
  appendBytes [0#8]
/-- assembler.py:579-581 -/
def directiveDwToAsciiz (d : Dialect) (tokens : List Str) : M Unit := do
  directiveDwToAscii d tokens
  appendBytes [0#8]

/-- assembler.py:705-715 `parse_bytes_or_ascii` -/
def parseBytesOrAscii (d : Dialect) : List Str → M Bytes
  | [] => pure []
  | tok :: toks => do
    let c ← firstChar tok
    let blob ←
      (if isQuote c then lift (encodeAscii (unquote tok))
       else do
        match ← parseIntegerM d tok 8 false with
        | none => throw .labelNotAllowed
        | some v => lift (packByte [some v]))
    let rest ← parseBytesOrAscii d toks
    pure (blob ++ rest)

/-! ## padding -/

/-- assembler.py:600-604, 616-620, 632-636: the optional fill value. -/
def fillArg (d : Dialect) (rest : List Str) : M Int :=
  match rest with
  | [v] => parseArg d v 8
  | _ => pure d.fillValue

/-- `len(instr.tokens) not in (2, 3)` → raise, else the first argument and the rest. -/
def twoOrThree (tokens : List Str) : M (Str × List Str) :=
  match tokens with
  | [_, a] => pure (a, [])
  | [_, a, b] => pure (a, [b])
  | _ => throw .invalidArgumentsForDirective

/-- assembler.py:594-606 `directive_fill` -/
def directiveFill (d : Dialect) (tokens : List Str) : M Unit := do
  let (a, rest) ← twoOrThree tokens
  let size ← parseArg d a 64
  let value ← fillArg d rest
  let blob ← lift (bytesRep value size)
  appendBytes blob

/-- assembler.py:608-622 `directive_goto`: the check is against the output size, the
padding against the pc. -/
def directiveGoto (d : Dialect) (tokens : List Str) : M Unit := do
  let (a, rest) ← twoOrThree tokens
  let offset ← parseArg d a 64
  let s ← get
  if offset < (s.bytes.length : Int) then throw .addressOverlap
  else
    let value ← fillArg d rest
    let blob ← lift (bytesRep value (offset - s.pc))
    appendBytes blob

/-- assembler.py:624-638 `directive_upto`: the padding is relative to the origin. -/
def directiveUpto (d : Dialect) (tokens : List Str) : M Unit := do
  let (a, rest) ← twoOrThree tokens
  let offset ← parseArg d a 64
  let s ← get
  if offset < (s.bytes.length : Int) then throw .addressOverlap
  else
    let value ← fillArg d rest
    let blob ← lift (bytesRep value (offset - (s.pc - s.org)))
    appendBytes blob

/-- `len(instr.tokens) != 2` → raise, else the argument. -/
def exactlyTwo (tokens : List Str) : M Str :=
  match tokens with
  | [_, a] => pure a
  | _ => throw .invalidArgumentsForDirective

/-- assembler.py:640-646 `directive_ram` -/
def directiveRam (d : Dialect) (tokens : List Str) : M Unit := do
  let a ← exactlyTwo tokens
  let size ← parseArg d a 64
  if size < 1 then throw .invalidArgumentsForDirective
  else modify fun s => { s with counter := s.counter + size }

/-- assembler.py:648-658 `directive_align` -/
def directiveAlign (d : Dialect) (tokens : List Str) : M Unit := do
  let a ← exactlyTwo tokens
  let size ← parseArg d a 64
  let s ← get
  if size = 0 then throw .zeroDivisionError
  else
    let m := s.pc % size
    if m ≠ 0 then
      -- `bytes([self.fill_value]) * (size - mod)`
      let one ← lift (bytesRep d.fillValue 1)
      appendBytes (List.replicate (size - m).toNat one).flatten
    else pure ()

/-- assembler.py:660-669 `directive_repeat` -/
def directiveRepeat (d : Dialect) (tokens : List Str) : M Unit := do
  let s ← get
  match s.rep with
  | some _ => throw .unsupportedNestedRepeat
  | none =>
    let a ← exactlyTwo tokens
    let size ← parseArg d a 64
    if size ≤ 0 then throw .invalidArgumentsForDirective
    else modify fun s => { s with rep := some (size, s.bytes.length) }

/-- assembler.py:671-679 `directive_end_repeat` -/
def directiveEndRepeat : M Unit := do
  let s ← get
  match s.rep with
  | none => throw .notInRepeatMode
  | some (size, index) =>
    modify fun s => { s with rep := none }
    let blob := s.bytes.drop index
    times (size - 1).toNat (appendBytes blob)

/-- assembler.py:583-592 `directive_log`; any other argument is ignored because the
exception object is created but not raised. -/
def directiveLog (tokens : List Str) : M Unit :=
  match tokens.drop 1 with
  | [] => modify fun s => { s with log := true }
  | t :: _ =>
    if upper t = "ON".toList then modify fun s => { s with log := true }
    else if upper t = "OFF".toList then modify fun s => { s with log := false }
    else pure ()

/-! ## sections and exports -/

/-- assembler.py:206-210 and 761-764: store the end and the size of the open section.
`if self.current_section:` is false for `None` and for the empty name. -/
def closeSection : M Unit := fun s =>
  match s.curSection with
  | none => (.ok (), s)
  | some n =>
    if n = [] then (.ok (), s)
    else
      match dget s.sections n with
      | none => (.error .keyError, s)
      | some sec =>
        let sec' := { sec with stop := some s.pc, size := some ((s.bytes.length : Int) - sec.offset) }
        (.ok (), { s with sections := dset s.sections n sec' })

/-- assembler.py:754 the permission letters. -/
def isPermission (c : Char) : Bool := c = 'R' || c = 'W' || c = 'X' || c = 'E'

/-- assembler.py:747-767 `directive_section`, after the argument count check. -/
def sectionBody (d : Dialect) (nameTok perms : Str) (orgTok : Option Str) : M Unit := do
  let name ← stringify nameTok
  let s ← get
  if dmem s.sections name then throw .sectionAlreadyDefined
  else if !perms.all isPermission then throw .invalidArgumentsForDirective
  else
    match orgTok with
    | none => pure ()
    | some t => do
      let start ← parseArg d t 64
      changeOrg d start 0
    closeSection
    modify fun s =>
      let sec : Section := { start := s.pc, offset := s.bytes.length, permissions := perms }
      { s with curSection := some name, sections := dset s.sections name sec }

/-- assembler.py:747-767 `directive_section` -/
def directiveSection (d : Dialect) (tokens : List Str) : M Unit :=
  match tokens with
  | [_, n, p] => sectionBody d n p none
  | [_, n, p, o] => sectionBody d n p (some o)
  | _ => throw .invalidArgumentsForDirective

/-- assembler.py:769-775 `directive_export` -/
def directiveExport (tokens : List Str) : M Unit := do
  let a ← exactlyTwo tokens
  let name ← stringify a
  let s ← get
  if name ∈ s.exports then throw .symbolAlreadyExported
  else modify fun s => { s with exports := s.exports ++ [name] }

/-! ## files -/

/-- `open(...)` -/
def openFile (x : Option α) : M α :=
  match x with
  | some a => pure a
  | none => throw .fileNotFoundError

/-- assembler.py:732-737 `directive_include`; `rec` is `self.assemble`. -/
def directiveInclude (env : Env) (rec : Str → M Unit) (tokens : List Str) : M Unit := do
  let a ← exactlyTwo tokens
  let name ← stringify a
  let code ← openFile (env.text name)
  rec code

/-- assembler.py:739-745 `directive_incbin` -/
def directiveIncbin (env : Env) (tokens : List Str) : M Unit := do
  let a ← exactlyTwo tokens
  let name ← stringify a
  let blob ← openFile (env.binary name)
  appendBytes blob

/-- assembler.py:785-790, 802-807: the cells of a csv file, `enc` packs one value. -/
def csvCells (d : Dialect) (bits : Nat) (enc : Int → Except Err Bytes) : List Str → M Bytes
  | [] => pure []
  | c :: cs => do
    match ← parseIntegerM d c bits false with
    | none => throw .labelNotAllowed
    | some v =>
      let b ← lift (enc v)
      let rest ← csvCells d bits enc cs
      pure (b ++ rest)

/-- assembler.py:777-792 `directive_inccsv` -/
def directiveInccsv (d : Dialect) (env : Env) (tokens : List Str) : M Unit := do
  let a ← exactlyTwo tokens
  let name ← stringify a
  let rows ← openFile (env.csv name)
  let blob ← csvCells d 8 (fun v => bytesRep v 1) rows.flatten
  appendBytes blob

/-- assembler.py:794-809 `directive_inccsv_le16` -/
def directiveInccsvLe16 (d : Dialect) (env : Env) (tokens : List Str) : M Unit := do
  let a ← exactlyTwo tokens
  let name ← stringify a
  let rows ← openFile (env.csv name)
  let blob ← csvCells d 16 (fun v => packLe16u [some v]) rows.flatten
  appendBytes blob

/-- assembler.py:823-828: the items of a json list. -/
def jsonItems (d : Dialect) : List (Int ⊕ Str) → M Bytes
  | [] => pure []
  | .inl v :: r => do
    let b ← lift (bytesRep v 1)
    let rest ← jsonItems d r
    pure (b ++ rest)
  | .inr t :: r => do
    match ← parseIntegerM d t 8 false with
    | none => throw .labelNotAllowed
    | some v =>
      let b ← lift (bytesRep v 1)
      let rest ← jsonItems d r
      pure (b ++ rest)

/-- assembler.py:811-830 `directive_incjson` -/
def directiveIncjson (d : Dialect) (env : Env) (tokens : List Str) : M Unit := do
  match tokens with
  | [_, f, k] =>
    let file ← stringify f
    let key ← stringify k
    let items ← lift (env.json file key)
    let blob ← jsonItems d items
    appendBytes blob
  | _ => throw .invalidArgumentsForDirective

/-! ## the directive table -/

/-- assembler.py:111-141 `_register_internal_directives`.  The names are stored in
upper case (or as written when `case_sensitive`). -/
def builtinDirective (d : Dialect) (env : Env) (rec : Str → M Unit) :
    List (String × (List Str → M Unit)) :=
  [ ("macro", directiveMacro d),
    ("endmacro", fun _ => directiveEndMacro),
    ("org", directiveOrg d),
    ("include", directiveInclude env rec),
    ("incbin", directiveIncbin env),
    ("inccsv", directiveInccsv d env),
    ("inccsv_le16", directiveInccsvLe16 d env),
    ("incjson", directiveIncjson d env),
    ("define", directiveDefine),
    ("db", directiveDb d),
    ("byte", directiveDb d),
    ("dw", directiveDw d),
    ("word", directiveDw d),
    ("dd", directiveDd d),
    ("dl", directiveDd d),
    ("dword", directiveDd d),
    ("db_to_ascii", directiveDbToAscii d),
    ("dw_to_ascii", directiveDwToAscii d),
    ("db_to_asciiz", directiveDbToAsciiz d),
    ("dw_to_asciiz", directiveDwToAsciiz d),
    ("fill", directiveFill d),
    ("ram", directiveRam d),
    ("log", directiveLog),
    ("align", directiveAlign d),
    ("repeat", directiveRepeat d),
    ("endrepeat", fun _ => directiveEndRepeat),
    ("goto", directiveGoto d),
    ("upto", directiveUpto d),
    ("section", directiveSection d),
    ("export", directiveExport) ]

/-- `self.directives[key]` (assembler.py:866-870): class directives shadow the
built-in ones. -/
def lookupDirective (d : Dialect) (env : Env) (rec : Str → M Unit) (key : Str) :
    Option (List Str → M Unit) :=
  match d.directives env key with
  | some f => some f
  | none => dget ((builtinDirective d env rec).map fun p => (d.key p.1.toList, p.2)) key

/-- statements.py:122-131 `Directive.assemble` -/
def execDirective (d : Dialect) (env : Env) (rec : Str → M Unit) (tokens : List Str) : M Unit := do
  let s ← get
  let tokens := substituteWithDict tokens s.defines 1
  match tokens with
  | [] => throw .indexError
  | t :: _ =>
    match lookupDirective d env rec (d.key (t.drop 1)) with
    | none => throw .unknownDirective
    | some f => f tokens

/-! ## labels -/

/-- statements.py:105-119 `Label.assemble` -/
def execLabel (d : Dialect) (tokens : List Str) : M Unit := fun s =>
  match s.recording with
  | some _ => (.error .labelNotAllowedInMacro, s)
  | none =>
    match tokens with
    | [] => (.error .indexError, s)
    | key :: _ =>
      if dmem s.labels key then (.error .labelAlreadyDefined, s)
      else if !isValidName key then (.error .invalidLabel, s)
      else
        match parseInteger d.sy s.labels key 64 false with
        | .error e => (.error e, s)
        | .ok (some _) => (.error .invalidLabel, s)
        | .ok none =>
          (.ok (), { s with labels := dset s.labels key ⟨s.counter, s.org, s.curSection⟩ })

/-! ## instructions and macro expansion -/

/-- statements.py:40-54: call the handler.  A `None` result and every exception that
is not an `AssemblerException` become `InvalidInstruction`. -/
def runHandler (d : Dialect) (f : List Str → H (Option Bytes)) (tokens : List Str) : M Bytes := fun s =>
  match f tokens ⟨s.pc, s.labels, d.sy, s.bitsMode⟩ with
  | (r, rel) =>
    let s' := rel.foldl addReloc s
    match r with
    | .ok (some blob) => (.ok blob, s')
    | .ok none => (.error .invalidInstruction, s')
    | .error e => (.error (if e.isAssembler then e else .invalidInstruction), s')

/-- macros.py:12-17 `add_instruction` on the macro being recorded. -/
def recordStmt (key : Str) (st : Stmt) : M Unit := fun s =>
  match dget s.macros key with
  | some m => (.ok (), { s with macros := dset s.macros key { m with body := m.body ++ [st] } })
  | none => (.error .keyError, s)

/-- Body statement `idx` of macro `key`: replace its tokens (the statements are
mutable objects shared by all uses of the macro). -/
def setBodyTokens (key : Str) (idx : Nat) (tokens : List Str) : M Unit := modify fun s =>
  match dget s.macros key with
  | some m =>
    let m' := { m with body := m.body.modify idx fun st => { st with tokens := tokens } }
    { s with macros := dset s.macros key m' }
  | none => s

/-- Where a statement object lives: in a source, or body statement `idx` of a macro. -/
abbrev StmtRef := Option (Str × Nat)

/-- `instr.tokens[...] = ...` on a statement object. -/
def writeBack (ref : StmtRef) (tokens : List Str) : M Unit :=
  match ref with
  | none => pure ()
  | some (key, idx) => setBodyTokens key idx tokens

/-- macros.py:31-33: build `macro_dict`; a missing argument is `IndexError`. -/
def macroDict : List Str → List Str → List (Str × Str) → Except Err (List (Str × Str))
  | [], _, acc => .ok acc
  | _ :: _, [], _ => .error .indexError
  | p :: ps, a :: as, acc => macroDict ps as (dset acc p a)

/-- macros.py:28-38: one iteration of the loop of `Macro.assemble`. -/
def macroStep (exec : StmtRef → Stmt → M Unit) (key : Str) (params args : List Str) (idx : Nat) :
    M Unit := do
  let s ← get
  match dget s.macros key with
  | none => throw .keyError
  | some m =>
    match m.body[idx]? with
    | none => pure ()
    | some st =>
      let md ← lift (macroDict params args [])
      let tokens := substituteWithDict st.tokens md 0
      setBodyTokens key idx tokens
      exec (some (key, idx)) { st with tokens := tokens }
      setBodyTokens key idx st.tokens

/-- macros.py:19-38 `Macro.assemble` -/
def runMacro (exec : StmtRef → Stmt → M Unit) (key : Str) (m : Macro) (tokens : List Str) : M Unit :=
  forEach (List.range m.body.length) (macroStep exec key m.args (tokens.drop 1))

/-- statements.py:18-59 `Instruction.assemble`.  `depth` bounds macro nesting
(Python's recursion limit). -/
def execInstr (d : Dialect) : Nat → StmtRef → Stmt → M Unit
  | 0, _, _ => throw .recursionError
  | depth + 1, ref, st => do
    let s ← get
    match s.recording with
    | some key => recordStmt key st
    | none =>
      let tokens := substituteWithDict st.tokens s.defines 0
      writeBack ref tokens
      match tokens with
      | [] => throw .indexError
      | t :: _ =>
        let key := d.key t
        match dget s.macros key with
        | some m => runMacro (execInstr d depth) key m tokens
        | none =>
          match d.instrs key with
          | none => throw .unknownInstruction
          | some (.fixed blob) =>
            if tokens.length ≠ 1 then throw .invalidOpCodeArguments else appendBytes blob
          | some (.handler f) => do
            let blob ← runHandler d f tokens
            appendBytes blob

/-- `statement.assemble(self)` -/
def execStmt (d : Dialect) (env : Env) (depth : Nat) (rec : Str → M Unit) (st : Stmt) : M Unit :=
  match st.kind with
  | .instr => execInstr d depth none st
  | .directive => execDirective d env rec st.tokens
  | .label => execLabel d st.tokens

/-- assembler.py:199-204: fill the open bounded region at the end of a source. -/
def finalFill (d : Dialect) : M Unit := do
  let s ← get
  if 0 < s.orgEnd then
    if s.org + s.counter < s.orgEnd then
      let blob ← lift (bytesRep d.fillValue ((s.orgEnd + 1) - (s.org + s.counter)))
      appendBytes blob
    else pure ()
  else pure ()

/-- assembler.py:188-210: the statements, then the end-of-source work. -/
def execStmts (d : Dialect) (env : Env) (depth : Nat) (rec : Str → M Unit) (stmts : List Stmt) :
    M Unit := do
  forEach stmts (execStmt d env depth rec)
  finalFill d
  closeSection

/-- assembler.py:184-210 `assemble(code)`.  `depth` bounds the nesting of includes and
macros. -/
def assemble (d : Dialect) (env : Env) : Nat → Str → M Unit
  | 0, _ => throw .recursionError
  | depth + 1, code => do
    let stmts ← lift (tokenize code)
    execStmts d env depth (assemble d env depth) stmts

end Necro
