import Verif.Spec.Bits
import Verif.Spec.Link
/-!
# An ELF reader

Written from the ELF specification (System V ABI, chapter 4, and the 64-bit variant), not from
the program.
-/

namespace Necro.Spec

/-- The UTF-8 encoding of a name, by Lean's own encoder. -/
def utf8 (s : List Char) : Bytes := s.flatMap fun c => (String.utf8EncodeChar c).map (·.toBitVec)

/-- An unsigned field. -/
def field (be : Bool) (file : Bytes) (offset size : Nat) : Nat := ofBytes be (window file offset size)

/-- `Elf32_Ehdr`, `Elf64_Ehdr` -/
structure Ehdr where
  is64 : Bool
  be : Bool
  type : Nat
  machine : Nat
  version : Nat
  entry : Nat
  phoff : Nat
  shoff : Nat
  flags : Nat
  ehsize : Nat
  phentsize : Nat
  phnum : Nat
  shentsize : Nat
  shnum : Nat
  shstrndx : Nat
deriving DecidableEq, Repr

/-- `Elf32_Shdr`, `Elf64_Shdr` -/
structure Shdr where
  name : Nat
  type : Nat
  flags : Nat
  addr : Nat
  offset : Nat
  size : Nat
  link : Nat
  info : Nat
  align : Nat
  entsize : Nat
deriving DecidableEq, Repr

/-- `Elf32_Sym`, `Elf64_Sym` -/
structure Sym where
  name : Nat
  value : Nat
  size : Nat
  info : Nat
  other : Nat
  shndx : Nat
deriving DecidableEq, Repr

/-- The header: the magic number, the class and data bytes, and then the fields of the class. -/
def readEhdr (file : Bytes) : Option Ehdr :=
  if window file 0 4 ≠ [0x7F, 0x45, 0x4C, 0x46] then none
  else
    match file[4]?, file[5]?, file[6]? with
    | some cls, some data, some ver =>
      if (cls = 1 ∨ cls = 2) ∧ (data = 1 ∨ data = 2) ∧ ver = 1 then
        let is64 := decide (cls = 2)
        let be := decide (data = 2)
        let f := field be file
        some <|
          if is64 then
            { is64, be, type := f 16 2, machine := f 18 2, version := f 20 4, entry := f 24 8, phoff := f 32 8,
              shoff := f 40 8, flags := f 48 4, ehsize := f 52 2, phentsize := f 54 2, phnum := f 56 2,
              shentsize := f 58 2, shnum := f 60 2, shstrndx := f 62 2 }
          else
            { is64, be, type := f 16 2, machine := f 18 2, version := f 20 4, entry := f 24 4, phoff := f 28 4,
              shoff := f 32 4, flags := f 36 4, ehsize := f 40 2, phentsize := f 42 2, phnum := f 44 2,
              shentsize := f 46 2, shnum := f 48 2, shstrndx := f 50 2 }
      else none
    | _, _, _ => none

/-- A section header at a file offset. -/
def readShdr (is64 be : Bool) (file : Bytes) (o : Nat) : Shdr :=
  let f := fun a n => field be file (o + a) n
  if is64 then
    { name := f 0 4, type := f 4 4, flags := f 8 8, addr := f 16 8, offset := f 24 8, size := f 32 8,
      link := f 40 4, info := f 44 4, align := f 48 8, entsize := f 56 8 }
  else
    { name := f 0 4, type := f 4 4, flags := f 8 4, addr := f 12 4, offset := f 16 4, size := f 20 4,
      link := f 24 4, info := f 28 4, align := f 32 4, entsize := f 36 4 }

/-- A symbol at a file offset. -/
def readSym (is64 be : Bool) (file : Bytes) (o : Nat) : Sym :=
  let f := fun a n => field be file (o + a) n
  if is64 then
    { name := f 0 4, info := f 4 1, other := f 5 1, shndx := f 6 2, value := f 8 8, size := f 16 8 }
  else
    { name := f 0 4, value := f 4 4, size := f 8 4, info := f 12 1, other := f 13 1, shndx := f 14 2 }

/-- Section header number `i`. -/
def shdr (file : Bytes) (e : Ehdr) (i : Nat) : Shdr :=
  readShdr e.is64 e.be file (e.shoff + e.shentsize * i)

/-- The bytes of a section in the file; `SHT_NOBITS` (8) and `SHT_NULL` (0) occupy none. -/
def contents (file : Bytes) (h : Shdr) : Bytes :=
  if h.type = 0 ∨ h.type = 8 then [] else window file h.offset h.size

/-- A string of a string table: the bytes from an offset up to the next NUL. -/
def stringAt (table : Bytes) (o : Nat) : Bytes := (table.drop o).takeWhile (· ≠ 0)

/-- The name of a section. -/
def sectionName (file : Bytes) (e : Ehdr) (h : Shdr) : Bytes :=
  stringAt (contents file (shdr file e e.shstrndx)) h.name

/-- The entries of the symbol table `h`, with their names looked up in the linked string table. -/
def symbols (file : Bytes) (e : Ehdr) (h : Shdr) : List (Bytes × Sym) :=
  (List.range (h.size / h.entsize)).map fun k =>
    let y := readSym e.is64 e.be file (h.offset + h.entsize * k)
    (stringAt (contents file (shdr file e h.link)) y.name, y)

end Necro.Spec
