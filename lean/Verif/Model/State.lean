import Verif.Model.Numbers
import Verif.Model.Tokenizer
/-!
# Assembler state and the two monads of the model

`M` models methods of `Assembler`: they may change the state and then raise, and the
changes made before the exception stay (Python objects are mutable).  `H` models the
instruction handlers of the cpu modules: they read the state, may record label
references (`add_label_translation`), and return bytes, `None` or raise.
-/

namespace Necro

/-- assembler.py:39-51 `LabelData`.  `hook = some w` is the closure
`format(address, '0<w>d')` of assembler.py:560-564 (w = 5) and 682-686 (w = 3). -/
structure Reloc where
  label : Str
  size : Nat
  bitsSize : Nat
  relative : Int := 0
  offset : Nat := 0
  alignment : Nat := 1
  bits : Option (Nat × Nat) := none
  filter : Option (Int → Int) := none
  hook : Option Nat := none

/-- assembler.py:762-767 the dictionary stored for a section. -/
structure Section where
  start : Int
  offset : Nat
  permissions : Str
  stop : Option Int := none
  size : Option Int := none
deriving DecidableEq, Repr

/-- macros.py:5-10 `Macro` (`name` is never read back). -/
structure Macro where
  args : List Str
  body : List Stmt := []
deriving DecidableEq, Repr

/-- assembler.py:73-109 the mutable fields of `Assembler` (the pass lists and the
registered instructions/directives are in `Dialect`).  `cartridgeSet` is
gameboy.py:28 / nes.py:28, `bitsMode` is the mode switched by the x86 `.bits`
directive (x86.py:1991). -/
structure St where
  bytes : Bytes := []
  labels : Labels := []
  org : Int := 0
  orgEnd : Int := 0
  counter : Int := 0
  relocs : List (Nat × Reloc) := []
  macros : List (Str × Macro) := []
  recording : Option Str := none
  rep : Option (Int × Nat) := none
  log : Bool := false
  sections : List (Str × Section) := []
  curSection : Option Str := none
  exports : List Str := []
  defines : List (Str × Str) := []
  cartridgeSet : Bool := false
  bitsMode : Nat := 0

/-- assembler.py:293-295 `pc` -/
def St.pc (s : St) : Int := s.org + s.counter

/-- State with exceptions; the state survives an exception. -/
def M (α : Type) : Type := St → Except Err α × St

namespace M

def pure (a : α) : M α := fun s => (.ok a, s)

def bind (m : M α) (f : α → M β) : M β := fun s =>
  match m s with
  | (.ok a, s') => f a s'
  | (.error e, s') => (.error e, s')

instance : Monad M where
  pure := M.pure
  bind := M.bind

/-- `raise` -/
def throw (e : Err) : M α := fun s => (.error e, s)

def get : M St := fun s => (.ok s, s)

def modify (f : St → St) : M Unit := fun s => (.ok (), f s)

/-- A computation that only reads. -/
def lift (x : Except Err α) : M α := fun s => (x, s)

/-- `for x in l: f(x)` -/
def forEach (l : List α) (f : α → M Unit) : M Unit :=
  match l with
  | [] => M.pure ()
  | x :: xs => M.bind (f x) fun _ => forEach xs f

/-- `for _ in range(n): m` -/
def times (n : Nat) (m : M Unit) : M Unit :=
  match n with
  | 0 => M.pure ()
  | n + 1 => M.bind m fun _ => times n m

end M

/-- What an instruction handler can read. -/
structure Ctx where
  pc : Int
  labels : Labels
  sy : NumSyntax
  bitsMode : Nat

/-- Handlers: read a context, may record label references, then return or raise. -/
def H (α : Type) : Type := Ctx → Except Err α × List Reloc

namespace H

def pure (a : α) : H α := fun _ => (.ok a, [])

def bind (m : H α) (f : α → H β) : H β := fun c =>
  match m c with
  | (.ok a, r) =>
    match f a c with
    | (x, r') => (x, r ++ r')
  | (.error e, r) => (.error e, r)

instance : Monad H where
  pure := H.pure
  bind := H.bind

def throw (e : Err) : H α := fun _ => (.error e, [])

def read : H Ctx := fun c => (.ok c, [])

def lift (x : Except Err α) : H α := fun _ => (x, [])

/-- assembler.py:297-308 `add_label_translation` -/
def reloc (r : Reloc) : H Unit := fun _ => (.ok (), [r])

/-- `try: m except e: h(e)`; references recorded before the exception stay. -/
def tryCatch (m : H α) (h : Err → H α) : H α := fun c =>
  match m c with
  | (.ok a, r) => (.ok a, r)
  | (.error e, r) =>
    match h e c with
    | (x, r') => (x, r ++ r')

/-- assembler.py:356-381 -/
def parseInteger (token : Str) (bits : Nat) (signed : Bool) : H (Option Int) := fun c =>
  (Necro.parseInteger c.sy c.labels token bits signed, [])

/-- assembler.py:462-466 -/
def labelAddress (name : Str) : H (Option Int) := fun c =>
  (Necro.labelAddress c.sy c.labels name, [])

/-- assembler.py:383-402 `parse_integer_or_label`; `r` carries the keyword arguments.
A non-zero `relative` forces `signed`. -/
def parseIntegerOrLabel (r : Reloc) (signed : Bool := false) : H Int := fun c =>
  match Necro.parseInteger c.sy c.labels r.label r.bitsSize (signed || r.relative != 0) with
  | .error e => (.error e, [])
  | .ok (some v) => (.ok v, [])
  | .ok none => (.ok 0, [r])

end H

/-- An entry of `Assembler.instructions`: constant bytes or a callable
(assembler.py:860-864, statements.py:40-58). -/
inductive InstrDef where
  | fixed (blob : Bytes)
  | handler (f : List Str → H (Option Bytes))

/-- A palette image as seen by the tile directives. -/
structure Image where
  indexed : Bool
  width : Nat
  height : Nat
  pixel : Nat → Nat → Int

/-- The outside world: files by name.  `json file key` is the list reached by the
dotted key, each item an integer or a string. -/
structure Env where
  text : Str → Option Str := fun _ => none
  binary : Str → Option Bytes := fun _ => none
  csv : Str → Option (List (List Str)) := fun _ => none
  json : Str → Str → Except Err (List (Int ⊕ Str)) := fun _ _ => .error .fileNotFoundError
  image : Str → Option Image := fun _ => none

/-- An assembler class: the class attributes (assembler.py:56-71) and what its
constructor registers (assembler.py:104-109).  `directives` are those added on top of
the built-in ones; they take precedence because `_discover` runs later.  `postLink` is
the sequence of `@post_link` methods (only the Game Boy has one; nothing in the
repository registers a pre-link pass). -/
structure Dialect where
  sy : NumSyntax := {}
  caseSensitive : Bool := false
  fillValue : Int := 0
  bigEndian : Bool := false
  defines : List (Str × Str) := []
  instrs : Str → Option InstrDef := fun _ => none
  directives : Env → Str → Option (List Str → M Unit) := fun _ _ => none
  postLink : M Unit := M.pure ()

/-- assembler.py:73-109 the state of a new assembler object. -/
def Dialect.init (d : Dialect) : St := { defines := d.defines }

/-- `key if case_sensitive else key.upper()` -/
def Dialect.key (d : Dialect) (s : Str) : Str := if d.caseSensitive then s else upper s

end Necro
