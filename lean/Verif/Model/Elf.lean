import Verif.Model.Link
/-!
# /repo/necroassembler/linker.py: the `ELF` linker, and the mains of platforms/*_elf*.py
-/

namespace Necro

open M (throw get modify lift forEach)

/-- The arguments of `ELF.__init__` (linker.py:19).  `bits` is 32 or 64 at every call site;
other values leave the attributes of the object undefined and are not modelled. -/
structure ElfCfg where
  is64 : Bool
  bigEndian : Bool
  eType : Int
  machine : Int
  alignment : Int := 0
deriving DecidableEq, Repr

/-- platforms/i386_elf32.py:6 -/
def i386Elf : ElfCfg := ⟨false, false, 1, 3, 0⟩
/-- platforms/ppc_elf32.py:6 -/
def ppcElf : ElfCfg := ⟨false, true, 1, 0x14, 4⟩
/-- platforms/x86_64_elf64.py:6 -/
def x86Elf64 : ElfCfg := ⟨true, false, 1, 0x3E, 0⟩

/-- linker.py:29, 33 -/
def ElfCfg.sectionHeaderSize (c : ElfCfg) : Nat := if c.is64 then 64 else 40
/-- linker.py:30, 34 -/
def ElfCfg.headerSize (c : ElfCfg) : Nat := if c.is64 then 64 else 52
/-- linker.py:28, 32 `section_pack_format` -/
def ElfCfg.sectionFormat (c : ElfCfg) : List Fmt :=
  if c.is64 then [.I, .I, .Q, .Q, .Q, .Q, .I, .I, .Q, .Q] else List.replicate 10 .I

/-- linker.py:19-25 `__init__`: the first part of the header.  `pack` (utils.py:71-72) passes
its integers to `struct.pack` unchanged. -/
def elfInit (c : ElfCfg) : Except Err Bytes :=
  match structPack c.bigEndian [.H, .H, .I] [c.eType, c.machine, 1] with
  | .error e => .error e
  | .ok r => .ok ([0x7F, 0x45, 0x4C, 0x46] ++ [if c.is64 then 2 else 1, if c.bigEndian then 2 else 1, 1, 0] ++
      List.replicate 8 0 ++ r)

/-- linker.py:38-39 `_build_null_section` -/
def nullSection (c : ElfCfg) : Except Err Bytes :=
  structPack c.bigEndian c.sectionFormat [0, 0, 0, 0, 0, 0, 0, 0, 0, 0]

/-- linker.py:45-53: the flags. -/
def sectionFlags (perms : Str) : Int :=
  let f := 0
  let f := if 'R' ∈ perms then pyOr f 2 else f
  let f := if 'W' ∈ perms then pyOr f 1 else f
  let f := if 'X' ∈ perms then pyOr f 4 else f
  let f := if 'E' ∈ perms then pyOr f 4 else f
  f

/-- linker.py:41-56 `_build_section`.  A section that was never closed has size `None`, which
is not equal to 0 and which `pack` writes as 0. -/
def buildSection (c : ElfCfg) (fileBase : Nat) (nameOffset : Nat) (sec : Section) : Except Err Bytes :=
  structPack c.bigEndian c.sectionFormat
    [nameOffset, if sec.size = some 0 then 8 else 1, sectionFlags sec.permissions, sec.start,
      ((fileBase + sec.offset : Nat) : Int), sec.size.getD 0, 0, 0, c.alignment, 0]

/-- linker.py:58-59 `_build_string_section` -/
def buildStringSection (c : ElfCfg) (nameOffset offset : Nat) (data : Bytes) : Except Err Bytes :=
  structPack c.bigEndian c.sectionFormat [nameOffset, 3, 0x20, 0, offset, data.length, 0, 0, 0, 0]

/-- linker.py:61-62 `_build_symtab_section` -/
def buildSymtabSection (c : ElfCfg) (nameOffset offset : Nat) (data : Bytes) (link : Nat) : Except Err Bytes :=
  structPack c.bigEndian c.sectionFormat
    [nameOffset, 2, 0, 0, offset, data.length, link, 0, 0, if c.is64 then 24 else 16]

/-- linker.py:75-77 and 85-89: append the names to a string table, remembering where each
one starts (`elf_string_offset`). -/
def addNames : List Str → Bytes → List Nat × Bytes
  | [], table => ([], table)
  | n :: ns, table =>
    let r := addNames ns (table ++ (encodeUtf8 n ++ [0]))
    (table.length :: r.1, r.2)

/-- `acc += f(x)` over a list, stopping at the first exception. -/
def concatM (f : α → Except Err Bytes) : List α → Except Err Bytes
  | [] => .ok []
  | x :: xs =>
    match f x with
    | .error e => .error e
    | .ok b =>
      match concatM f xs with
      | .error e => .error e
      | .ok bs => .ok (b ++ bs)

/-- linker.py:102-104: the headers of the sections. -/
def sectionHeaders (c : ElfCfg) (fileBase : Nat) (l : List (Nat × Section)) : Except Err Bytes :=
  concatM (fun p => buildSection c fileBase p.1 p.2) l

/-- `assembler.sections[symbol_data['section']]['elf_section_index']` (linker.py:113, 117);
a label outside every section is `KeyError`. -/
def sectionIndex (sections : List (Str × Section)) (l : LabelInfo) : Except Err Nat :=
  match l.sect with
  | none => .error .keyError
  | some n =>
    match sections.findIdx? (fun e => e.1 == n) with
    | none => .error .keyError
    | some i => .ok i

/-- linker.py:110-117: one symbol. -/
def buildSymbol (c : ElfCfg) (sections : List (Str × Section)) (nameOffset : Nat) (l : LabelInfo) :
    Except Err Bytes :=
  match sectionIndex sections l with
  | .error e => .error e
  | .ok i =>
    if c.is64 then
      structPack c.bigEndian [.I, .B, .B, .H, .Q, .Q] [nameOffset, 0x10, 0, ((i + 1 : Nat) : Int), l.base, 0]
    else
      structPack c.bigEndian [.I, .I, .I, .B, .B, .H] [nameOffset, l.base, 0, 0x10, 0, ((i + 1 : Nat) : Int)]

/-- linker.py:106-117: the symbol table. -/
def symbolTable (c : ElfCfg) (sections : List (Str × Section)) (l : List (Nat × LabelInfo)) : Except Err Bytes :=
  concatM (fun p => buildSymbol c sections p.1 p.2) l

/-- linker.py:130-137: the second part of the header (`entry_point` is 0, linker.py:26). -/
def elfHeaderRest (c : ElfCfg) (n : Nat) : Except Err Bytes :=
  structPack c.bigEndian
    (if c.is64 then [.Q, .Q, .Q, .I, .H, .H, .H, .H, .H, .H] else [.I, .I, .I, .I, .H, .H, .H, .H, .H, .H])
    [0, 0, c.headerSize, 0, c.headerSize, 0, 0, c.sectionHeaderSize, ((n + 4 : Nat) : Int), ((n + 1 : Nat) : Int)]

/-- The exported labels that are defined, in definition order (linker.py:85-87, 107-109). -/
def exportedLabels (s : St) : Labels := s.labels.filter fun e => decide (e.1 ∈ s.exports)

/-- The string tables of linker.py:74-95 and the offsets recorded in them. -/
structure ElfNames where
  sectionOffsets : List Nat
  shstrtabName : Nat
  strtabName : Nat
  symtabName : Nat
  shstrtab : Bytes
  symbolOffsets : List Nat
  strtab : Bytes

/-- linker.py:73-95 -/
def elfNames (s : St) : ElfNames :=
  let sh := addNames (s.sections.map Prod.fst) [0]
  let sh1 := addNames [".shstrtab".toList] sh.2
  let st := addNames ((exportedLabels s).map Prod.fst) [0]
  let sh2 := addNames [".strtab".toList] sh1.2
  let sh3 := addNames [".symtab".toList] sh2.2
  ⟨sh.1, sh.2.length, sh1.2.length, sh2.2.length, sh3.2, st.1, st.2⟩

/-- linker.py:97-98 -/
def elfFileBase (c : ElfCfg) (s : St) : Nat := c.headerSize + c.sectionHeaderSize * (s.sections.length + 4)

/-- linker.py:71-139 `link`: the file, and the value left in `self.header` (which a second
call on the same linker object would extend again). -/
def elfLink (c : ElfCfg) (header : Bytes) (s : St) : Except Err (Bytes × Bytes) := do
  let names := elfNames s
  let fileBase := elfFileBase c s
  let null ← nullSection c
  let heads ← sectionHeaders c fileBase (names.sectionOffsets.zip (s.sections.map Prod.snd))
  let symtab ← symbolTable c s.sections (names.symbolOffsets.zip ((exportedLabels s).map Prod.snd))
  let h1 ← buildStringSection c names.shstrtabName (fileBase + s.bytes.length) names.shstrtab
  let h2 ← buildStringSection c names.strtabName (fileBase + s.bytes.length + names.shstrtab.length) names.strtab
  let h3 ← buildSymtabSection c names.symtabName
    (fileBase + s.bytes.length + names.shstrtab.length + names.strtab.length) symtab (s.sections.length + 2)
  let rest ← elfHeaderRest c s.sections.length
  pure (header ++ rest ++ (null ++ heads ++ h1 ++ h2 ++ h3) ++ s.bytes ++ names.shstrtab ++ names.strtab ++ symtab,
    header ++ rest)

/-- A fresh linker object applied to an assembled program. -/
def elfFile (c : ElfCfg) (s : St) : Except Err Bytes := do
  let header ← elfInit c
  let r ← elfLink c header s
  pure r.1

/-- assembler.py:877-893 `main` with an `ELF` linker, as in platforms/i386_elf32.py:5-7,
ppc_elf32.py:5-7 and x86_64_elf64.py:5-7, without the file output. -/
def elfBuild (c : ElfCfg) (d : Dialect) (env : Env) (depth : Nat) (sources : List Str) : Except Err Bytes :=
  match (do
      forEach sources fun name => do
        let code ← openFile (env.text name)
        assemble d env depth code
      link d .elf : M Unit) d.init with
  | (.ok (), s) => elfFile c s
  | (.error e, _) => .error e

end Necro
