/-!
# The fragment of Python used by necroassembler

Strings, bytes, dictionaries, `int()`, integer bit operations and `struct.pack`,
written as total functions.  Strings are lists of Unicode scalar values.  Case
mapping, digits and whitespace follow Python on ASCII text only (simplification:
non-ASCII digits, blanks and case pairs are ordinary characters).
-/

namespace Necro

/-- Python `str`. -/
abbrev Str := List Char
/-- One element of a Python `bytes`/`bytearray`. -/
abbrev Byte := BitVec 8
/-- Python `bytes`/`bytearray`. -/
abbrev Bytes := List Byte

/-- Exceptions that can leave a call.  The first group are the subclasses of
`AssemblerException` (/repo/necroassembler/exceptions.py:1-124, linker.py:5-6,
platform and cpu modules); the second group are built-in Python exceptions and
the tokenizer's own `InvalidLabel`, which is *not* an `AssemblerException`
(/repo/necroassembler/tokenizer.py:5-10).  Messages are not modelled except the
label carried by the exceptions that name one. -/
inductive Err where
  -- AssemblerException subclasses
  | invalidOpCodeArguments
  | unknownInstruction
  | labelNotAllowedInMacro
  | invalidInstruction
  | negativeSignNotAllowed
  | unknownLabel (label : Str)
  | alignmentError (label : Str)
  | notInBitRange
  | invalidBitRange
  | onlyForwardAddressesAllowed (label : Str)
  | unknownDirective
  | unsupportedNestedMacro
  | unsupportedNestedRepeat
  | notInMacroRecordingMode
  | notInRepeatMode
  | unknownRegister
  | invalidRegister
  | invalidImmediateValue
  | invalidArgumentsForDirective
  | addressOverlap
  | labelAlreadyDefined
  | sectionAlreadyDefined
  | symbolAlreadyExported
  | invalidLabel
  | invalidDefine
  | labelNotAllowed
  | relocationNotImplemented
  /-- an exception class declared in a cpu or platform module -/
  | platform (name : String)
  -- everything else
  | tokenizerInvalidLabel (line : Nat)
  | indexError
  | keyError
  | valueError
  | typeError
  | zeroDivisionError
  | structError
  | unicodeEncodeError
  | recursionError
  | fileNotFoundError
deriving DecidableEq, Repr

/-- Is it an instance of `AssemblerException`?  (/repo/necroassembler/exceptions.py:1) -/
def Err.isAssembler : Err → Bool
  | .tokenizerInvalidLabel _ | .indexError | .keyError | .valueError | .typeError
  | .zeroDivisionError | .structError | .unicodeEncodeError | .recursionError
  | .fileNotFoundError => false
  | _ => true

deriving instance DecidableEq for Except

/-! ## str -/

/-- `str.upper()`; ASCII letters only (simplification). -/
def upper (s : Str) : Str := s.map Char.toUpper

/-- `str.isdigit()`; ASCII digits only (simplification).  False on the empty string. -/
def isDigitStr (s : Str) : Bool := !s.isEmpty && s.all Char.isDigit

/-- `s.startswith(p)` -/
def startsWith (s p : Str) : Bool := p.isPrefixOf s

/-- `s.endswith(p)` -/
def endsWith (s p : Str) : Bool := p.isSuffixOf s

/-- `str(n)` for a non-negative integer: decimal digits. -/
def natStr (n : Nat) : Str := Nat.toDigits 10 n

/-- `str(n)` for an integer. -/
def intStr : Int → Str
  | .ofNat n => natStr n
  | .negSucc n => '-' :: natStr (n + 1)

/-- `format(n, '0<width>d')`: zero padded to `width` characters, the sign counting
towards the width. -/
def fmtDec (width : Nat) : Int → Str
  | .ofNat n => List.replicate (width - (natStr n).length) '0' ++ natStr n
  | .negSucc n =>
    '-' :: (List.replicate (width - 1 - (natStr (n + 1)).length) '0' ++ natStr (n + 1))

/-! ## dict: association list in insertion order -/

/-- `d.get(k)` -/
def dget [DecidableEq κ] (d : List (κ × ν)) (k : κ) : Option ν :=
  match d with
  | [] => none
  | (k', v) :: r => if k' = k then some v else dget r k

/-- `k in d` -/
def dmem [DecidableEq κ] (d : List (κ × ν)) (k : κ) : Bool := (dget d k).isSome

/-- `d[k] = v`: an existing key keeps its position, a new one goes last. -/
def dset [DecidableEq κ] (d : List (κ × ν)) (k : κ) (v : ν) : List (κ × ν) :=
  match d with
  | [] => [(k, v)]
  | (k', v') :: r => if k' = k then (k', v) :: r else (k', v') :: dset r k v

/-! ## int(): parsing -/

/-- The characters skipped around a numeral by `int()` (ASCII). -/
def isPySpace (c : Char) : Bool :=
  c = ' ' || c = '\t' || c = '\n' || c = '\x0b' || c = '\x0c' || c = '\r'

/-- Value of a digit in bases up to 36. -/
def digitVal (c : Char) : Option Nat :=
  if '0' ≤ c ∧ c ≤ '9' then some (c.toNat - '0'.toNat)
  else if 'a' ≤ c ∧ c ≤ 'z' then some (c.toNat - 'a'.toNat + 10)
  else if 'A' ≤ c ∧ c ≤ 'Z' then some (c.toNat - 'A'.toNat + 10)
  else none

/-- A digit valid in `base`. -/
def digitIn (base : Nat) (c : Char) : Option Nat :=
  match digitVal c with
  | some d => if d < base then some d else none
  | none => none

/-- The rest of a numeral after a digit: digits, with single underscores allowed
between digits. -/
def scanDigits (base : Nat) (acc : Nat) : Str → Option Nat
  | [] => some acc
  | '_' :: c :: cs =>
    match digitIn base c with
    | some d => scanDigits base (acc * base + d) cs
    | none => none
  | c :: cs =>
    match digitIn base c with
    | some d => scanDigits base (acc * base + d) cs
    | none => none

/-- The digits of a numeral: at least one. -/
def pyDigits (base : Nat) : Str → Option Nat
  | [] => none
  | c :: cs =>
    match digitIn base c with
    | some d => scanDigits base d cs
    | none => none

/-- Drop an optional `0x`/`0o`/`0b` (and one underscore after it) as `int(s, base)`
does for bases 16, 8 and 2. -/
def dropBasePrefix (base : Nat) : Str → Str
  | '0' :: c :: cs =>
    if (base = 16 ∧ (c = 'x' ∨ c = 'X')) ∨ (base = 8 ∧ (c = 'o' ∨ c = 'O')) ∨
        (base = 2 ∧ (c = 'b' ∨ c = 'B')) then
      match cs with
      | '_' :: r => r
      | _ => cs
    else '0' :: c :: cs
  | s => s

/-- Strip blanks on both sides. -/
def strip (s : Str) : Str :=
  ((s.dropWhile isPySpace).reverse.dropWhile isPySpace).reverse

/-- `int(s, base)`; `none` is `ValueError`. -/
def pyInt (base : Nat) (s : Str) : Option Int :=
  match strip s with
  | '-' :: r => (pyDigits base (dropBasePrefix base r)).map fun n => -(n : Int)
  | '+' :: r => (pyDigits base (dropBasePrefix base r)).map fun n => (n : Int)
  | r => (pyDigits base (dropBasePrefix base r)).map fun n => (n : Int)

/-! ## int: bit operations on unbounded two's complement integers -/

/-- `a & b` -/
def pyAnd : Int → Int → Int
  | .ofNat a, .ofNat b => .ofNat (a &&& b)
  | .ofNat a, .negSucc b => .ofNat (a ^^^ (a &&& b))
  | .negSucc a, .ofNat b => .ofNat (b ^^^ (b &&& a))
  | .negSucc a, .negSucc b => .negSucc (a ||| b)

/-- `a | b` -/
def pyOr : Int → Int → Int
  | .ofNat a, .ofNat b => .ofNat (a ||| b)
  | .ofNat a, .negSucc b => .negSucc (b ^^^ (b &&& a))
  | .negSucc a, .ofNat b => .negSucc (a ^^^ (a &&& b))
  | .negSucc a, .negSucc b => .negSucc (a &&& b)

/-- `a >> k` (floor division by a power of two) -/
def pyShr (a : Int) (k : Nat) : Int := a / (2 ^ k : Nat)

/-- `a << k` -/
def pyShl (a : Int) (k : Nat) : Int := a * (2 ^ k : Nat)

/-! ## bytes and struct.pack -/

/-- `n` bytes of the two's complement representation of `v`, least significant first. -/
def leBytes : Nat → Int → Bytes
  | 0, _ => []
  | n + 1, v => BitVec.ofInt 8 v :: leBytes n (v / 256)

/-- The same, most significant first. -/
def beBytes (n : Nat) (v : Int) : Bytes := (leBytes n v).reverse

/-- `struct` format characters used by the code base. -/
inductive Fmt where
  | B | b | H | h | I | i | Q | q
deriving DecidableEq, Repr

/-- Field size in bytes (standard sizes). -/
def Fmt.size : Fmt → Nat
  | .B | .b => 1
  | .H | .h => 2
  | .I | .i => 4
  | .Q | .q => 8

/-- Does `v` fit the format character?  Otherwise `struct.pack` raises `struct.error`. -/
def Fmt.fits (f : Fmt) (v : Int) : Bool :=
  match f with
  | .B => 0 ≤ v ∧ v < 2 ^ 8
  | .b => -(2 ^ 7) ≤ v ∧ v < 2 ^ 7
  | .H => 0 ≤ v ∧ v < 2 ^ 16
  | .h => -(2 ^ 15) ≤ v ∧ v < 2 ^ 15
  | .I => 0 ≤ v ∧ v < 2 ^ 32
  | .i => -(2 ^ 31) ≤ v ∧ v < 2 ^ 31
  | .Q => 0 ≤ v ∧ v < 2 ^ 64
  | .q => -(2 ^ 63) ≤ v ∧ v < 2 ^ 63

/-- `struct.pack(fmt, *args)` with `'<'` (`be = false`) or `'>'` (`be = true`).
A wrong number of arguments is `struct.error`. -/
def structPack (be : Bool) : List Fmt → List Int → Except Err Bytes
  | [], [] => .ok []
  | f :: fs, v :: vs =>
    if f.fits v then
      match structPack be fs vs with
      | .ok r => .ok ((if be then beBytes f.size v else leBytes f.size v) ++ r)
      | .error e => .error e
    else .error .structError
  | _, _ => .error .structError

/-- `bytes([v] * n)`: a negative count gives the empty list; a value outside
`range(256)` raises `ValueError` (only reached when the list is not empty). -/
def bytesRep (v : Int) (n : Int) : Except Err Bytes :=
  if n ≤ 0 then .ok []
  else if 0 ≤ v ∧ v < 256 then .ok (List.replicate n.toNat (BitVec.ofInt 8 v))
  else .error .valueError

/-- `s.encode('ascii')` -/
def encodeAscii : Str → Except Err Bytes
  | [] => .ok []
  | c :: cs =>
    if c.toNat < 128 then
      match encodeAscii cs with
      | .ok r => .ok (BitVec.ofNat 8 c.toNat :: r)
      | .error e => .error e
    else .error .unicodeEncodeError

/-- UTF-16 code units of one character, little endian. -/
def utf16Units (c : Char) : Bytes :=
  if c.toNat < 0x10000 then leBytes 2 c.toNat
  else
    let v := c.toNat - 0x10000
    leBytes 2 (0xD800 + v / 1024 : Nat) ++ leBytes 2 (0xDC00 + v % 1024 : Nat)

/-- `s.encode('utf16')` on a little-endian host: byte order mark, then code units
(assumption: the host running the assembler is little endian). -/
def encodeUtf16 (s : Str) : Bytes := [0xFF#8, 0xFE#8] ++ s.flatMap utf16Units

/-- `s.encode('utf32')` on a little-endian host. -/
def encodeUtf32 (s : Str) : Bytes :=
  [0xFF#8, 0xFE#8, 0#8, 0#8] ++ s.flatMap fun c => leBytes 4 (c.toNat : Int)

/-- UTF-8 bytes of one character (`str.encode()`). -/
def utf8Char (c : Char) : Bytes :=
  let n := c.toNat
  if n < 0x80 then [BitVec.ofNat 8 n]
  else if n < 0x800 then [BitVec.ofNat 8 (0xC0 + n / 64), BitVec.ofNat 8 (0x80 + n % 64)]
  else if n < 0x10000 then
    [BitVec.ofNat 8 (0xE0 + n / 4096), BitVec.ofNat 8 (0x80 + n / 64 % 64),
     BitVec.ofNat 8 (0x80 + n % 64)]
  else
    [BitVec.ofNat 8 (0xF0 + n / 262144), BitVec.ofNat 8 (0x80 + n / 4096 % 64),
     BitVec.ofNat 8 (0x80 + n / 64 % 64), BitVec.ofNat 8 (0x80 + n % 64)]

/-- `s.encode()` -/
def encodeUtf8 (s : Str) : Bytes := s.flatMap utf8Char

end Necro
