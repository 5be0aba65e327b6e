import Verif.Model.Asm
/-!
# Linking: /repo/necroassembler/assembler.py:220-291 and the `Dummy` linker
-/

namespace Necro

open M (throw get modify lift forEach)

/-- Which linker object is passed to `link`: `Dummy` (linker.py:9-14) or a subclass of
`ELF` (linker.py:17-139), which differ in `resolve_unknown_symbol`. -/
inductive LinkerKind where
  | dummy | elf
deriving DecidableEq, Repr

/-- `resolve_unknown_symbol`: linker.py:10-11 raises, linker.py:64-66 returns 0 (it also
remembers the symbol in a table that nothing reads; not modelled). -/
def LinkerKind.resolveUnknown (k : LinkerKind) (label : Str) : Except Err Int :=
  match k with
  | .dummy => .error (.unknownLabel label)
  | .elf => .ok 0

/-- `self.assembled_bytes[i] |= v`; past the end is `IndexError`. -/
def orByte (i : Nat) (v : Byte) : M Unit := fun s =>
  if i < s.bytes.length then (.ok (), { s with bytes := s.bytes.modify i (· ||| v) })
  else (.error .indexError, s)

/-- `self.assembled_bytes[i] = v`; past the end is `IndexError`. -/
def setByte (i : Nat) (v : Byte) : M Unit := fun s =>
  if i < s.bytes.length then (.ok (), { s with bytes := s.bytes.set i v })
  else (.error .indexError, s)

/-- assembler.py:561-564, 683-686: the ascii hooks. -/
def writeAt (address : Nat) : Bytes → M Unit
  | [] => pure ()
  | b :: bs => do
    setByte address b
    writeAt (address + 1) bs

/-- assembler.py:260-265: OR the value into the window byte by byte. -/
def writeField (d : Dialect) (address size : Nat) (value : Int) : M Unit :=
  forEach (List.range size) fun i =>
    let v : Byte := BitVec.ofInt 8 (pyAnd (pyShr value (8 * i)) 0xFF)
    if d.bigEndian then orByte (address + ((size - 1) - i)) v else orByte (address + i) v

/-- assembler.py:242-258: the checks and conversions between the resolved address and
the value stored.  `absolute` is the absolute address, `target` the value to encode. -/
def encodeTarget (r : Reloc) (absolute target : Int) : Except Err Int :=
  if r.alignment = 0 then .error .zeroDivisionError
  else if absolute % (r.alignment : Int) ≠ 0 then .error (.alignmentError r.label)
  else if r.relative = 0 ∧ target < 0 then .error (.onlyForwardAddressesAllowed r.label)
  else if !inBitRangeDecimal target r.bitsSize (decide (r.relative ≠ 0)) then .error .notInBitRange
  else
    let target := match r.filter with
      | some f => f target
      | none => target
    match r.bits with
    | some (hi, lo) => packBits 0 [⟨hi, lo, target⟩]
    | none => .ok target

/-- assembler.py:226-236: the absolute address and the value to encode. -/
def resolveTarget (d : Dialect) (k : LinkerKind) (ls : Labels) (r : Reloc) :
    Except Err (Int × Int) :=
  match labelAddress d.sy ls r.label with
  | .error e => .error e
  | .ok abs =>
    match (if r.relative ≠ 0 then labelRelative d.sy ls r.label r.relative else .ok abs) with
    | .error e => .error e
    | .ok none =>
      match k.resolveUnknown r.label with
      | .error e => .error e
      | .ok v => .ok (v, v)
    | .ok (some t) => .ok (abs.getD t, t)

/-- assembler.py:222-269: one iteration of the loop of `_resolve_labels`. -/
def resolveOne (d : Dialect) (k : LinkerKind) (entry : Nat × Reloc) : M Unit := do
  let s ← get
  let (absolute, target) ← lift (resolveTarget d k s.labels entry.2)
  match entry.2.hook with
  | some w => do
    let blob ← lift (encodeAscii (fmtDec w target))
    writeAt entry.1 blob
  | none => do
    let v ← lift (encodeTarget entry.2 absolute target)
    writeField d entry.1 entry.2.size v

/-- assembler.py:220-269 `_resolve_labels` -/
def resolveLabels (d : Dialect) (k : LinkerKind) : M Unit := do
  let s ← get
  forEach s.relocs (resolveOne d k)

/-- assembler.py:272-291 `link` up to the call of `linker.link`; for `Dummy`
(linker.py:13-14) the output is `bytes` unchanged. -/
def link (d : Dialect) (k : LinkerKind) : M Unit := do
  resolveLabels d k
  d.postLink

/-- assembler.py:877-893 `main` without the file output: assemble the sources in order
and link with the default linker. -/
def mainRun (d : Dialect) (env : Env) (depth : Nat) (sources : List Str) : M Unit := do
  forEach sources fun name => do
    let code ← openFile (env.text name)
    assemble d env depth code
  link d .dummy

/-- The whole run as a function from sources to output bytes. -/
def build (d : Dialect) (env : Env) (depth : Nat) (sources : List Str) : Except Err Bytes :=
  match mainRun d env depth sources d.init with
  | (.ok (), s) => .ok s.bytes
  | (.error e, _) => .error e

end Necro
