import Verif.Model.Py
/-!
# /repo/necroassembler/utils.py
-/

namespace Necro

/-- utils.py:6-10 `neg_fix`.  (`bits = 0` would be a negative shift in Python; every
caller passes a positive width.) -/
def negFix (value : Int) (bits : Nat) : Int :=
  if pyAnd value (pyShl 1 (bits - 1)) ≠ 0 then -(pyShl 1 bits) + value else value

/-- The argument conversion shared by the unsigned packers:
`n & mask if n is not None else 0`. -/
def maskArg (bits : Nat) : Option Int → Int
  | some n => pyAnd n (2 ^ bits - 1 : Nat)
  | none => 0

/-- The argument conversion shared by the signed packers:
`neg_fix(n & mask, bits) if n is not None else 0`. -/
def maskArgS (bits : Nat) : Option Int → Int
  | some n => negFix (pyAnd n (2 ^ bits - 1 : Nat)) bits
  | none => 0

/-- `struct.pack('<' or '>' + c * len(args), *args)` -/
def packAll (be : Bool) (f : Fmt) (vs : List Int) : Except Err Bytes :=
  structPack be (List.replicate vs.length f) vs

/-- utils.py:13-14 -/
def packByte (args : List (Option Int)) : Except Err Bytes :=
  packAll false .B (args.map (maskArg 8))
/-- utils.py:17-18 -/
def pack8s (args : List (Option Int)) : Except Err Bytes :=
  packAll false .b (args.map (maskArgS 8))
/-- utils.py:21-23 -/
def packLe32s (args : List (Option Int)) : Except Err Bytes :=
  packAll false .i (args.map (maskArgS 32))
/-- utils.py:26-28 -/
def packLe32u (args : List (Option Int)) : Except Err Bytes :=
  packAll false .I (args.map (maskArg 32))
/-- utils.py:31-33 -/
def packLe64u (args : List (Option Int)) : Except Err Bytes :=
  packAll false .Q (args.map (maskArg 64))
/-- utils.py:36-38 -/
def packLe64s (args : List (Option Int)) : Except Err Bytes :=
  packAll false .q (args.map (maskArgS 64))
/-- utils.py:41-43 -/
def packBe32u (args : List (Option Int)) : Except Err Bytes :=
  packAll true .I (args.map (maskArg 32))
/-- utils.py:46-48 -/
def packBe32s (args : List (Option Int)) : Except Err Bytes :=
  packAll true .i (args.map (maskArgS 32))
/-- utils.py:51-53 -/
def packLe16s (args : List (Option Int)) : Except Err Bytes :=
  packAll false .h (args.map (maskArgS 16))
/-- utils.py:56-58 -/
def packLe16u (args : List (Option Int)) : Except Err Bytes :=
  packAll false .H (args.map (maskArg 16))
/-- utils.py:61-63 -/
def packBe16u (args : List (Option Int)) : Except Err Bytes :=
  packAll true .H (args.map (maskArg 16))
/-- utils.py:66-68 -/
def packBe16s (args : List (Option Int)) : Except Err Bytes :=
  packAll true .h (args.map (maskArgS 16))

/-- utils.py:71-72 `pack(fmt, *args)`: no masking, `None` becomes 0. -/
def pack (be : Bool) (fs : List Fmt) (args : List (Option Int)) : Except Err Bytes :=
  structPack be fs (args.map fun a => a.getD 0)

/-- utils.py:112-114 -/
def inBitRange (value : Int) (bits : Nat) : Bool :=
  pyAnd value (2 ^ bits - 1 : Nat) = value

/-- utils.py:117-128.  (`bits = 0` with `signed` would compute `pow(2, -1)`; no caller
does.) -/
def inBitRangeDecimal (value : Int) (bits : Nat) (signed : Bool) : Bool :=
  let maxValue : Int := (2 ^ bits : Nat)
  if value < 0 then
    let value := value + maxValue
    if value < maxValue / 2 then false
    else inBitRange value bits
  else if signed && decide (0 ≤ value) then inBitRange value (bits - 1)
  else inBitRange value bits

/-- One argument of `pack_bits`: `((end, start), value)`. -/
structure BitField where
  hi : Nat
  lo : Nat
  value : Int
deriving DecidableEq, Repr

/-- utils.py:75-92 `pack_bits`, one iteration of the loop. -/
def packBitsStep (base : Int) (f : BitField) : Except Err Int :=
  if f.hi < f.lo then .error .invalidBitRange
  else
    let totalBits := f.hi - f.lo + 1
    if f.value < 0 then
      let maxValue : Int := (2 ^ totalBits : Nat)
      let value := f.value + maxValue
      if value < maxValue / 2 then .error .invalidBitRange
      else if !inBitRange value totalBits then .error .invalidBitRange
      else .ok (pyOr base (pyAnd (pyShl value f.lo) (2 ^ (f.hi + 1) - 1 : Nat)))
    else if !inBitRange f.value totalBits then .error .invalidBitRange
    else .ok (pyOr base (pyAnd (pyShl f.value f.lo) (2 ^ (f.hi + 1) - 1 : Nat)))

/-- utils.py:75-92 `pack_bits(base, *args)` -/
def packBits (base : Int) : List BitField → Except Err Int
  | [] => .ok base
  | f :: fs =>
    match packBitsStep base f with
    | .ok b => packBits b fs
    | .error e => .error e

/-- utils.py:95-97 `pack_bit(base, *args)`: single-bit fields. -/
def packBit (base : Int) (args : List (Nat × Int)) : Except Err Int :=
  packBits base (args.map fun a => ⟨a.1, a.1, a.2⟩)

/-- utils.py:100-101 -/
def packBitsLe32u (base : Int) (args : List BitField) : Except Err Bytes :=
  match packBits base args with
  | .ok v => packLe32u [some v]
  | .error e => .error e
/-- utils.py:104-105 -/
def packBitsLe16u (base : Int) (args : List BitField) : Except Err Bytes :=
  match packBits base args with
  | .ok v => packLe16u [some v]
  | .error e => .error e
/-- utils.py:108-109 -/
def packBitsBe16u (base : Int) (args : List BitField) : Except Err Bytes :=
  match packBits base args with
  | .ok v => packBe16u [some v]
  | .error e => .error e

/-- utils.py:136-137 membership in `valid_chars`. -/
def isNameChar (c : Char) : Bool :=
  ('a' ≤ c ∧ c ≤ 'z') || ('A' ≤ c ∧ c ≤ 'Z') || ('0' ≤ c ∧ c ≤ '9') || c = '_' || c = '.'

/-- utils.py:135-141 `is_valid_name` (the empty name is valid). -/
def isValidName (name : Str) : Bool := name.all isNameChar

/-- utils.py:159-161, 166-168: `_dict[accumulator]` if present, else `accumulator`. -/
def subRun (d : List (Str × Str)) (run : Str) : Str :=
  match dget d run with
  | some v => v
  | none => run

/-- utils.py:154-168: the character loop of `substitute_with_dict`; `acc` is the
current run of name characters, `out` the rebuilt token. -/
def subScan (d : List (Str × Str)) : Str → Str → Str → Str
  | acc, out, [] => if acc ≠ [] then out ++ subRun d acc else out
  | acc, out, c :: cs =>
    if isNameChar c then subScan d (acc ++ [c]) out cs
    else if acc ≠ [] then subScan d [] ((out ++ subRun d acc) ++ [c]) cs
    else subScan d [] (out ++ [c]) cs

/-- utils.py:146-170: one token of `substitute_with_dict`. -/
def subToken (d : List (Str × Str)) (name : Str) : Str :=
  match dget d name with
  | some v => v
  | none => subScan d [] [] name

/-- utils.py:144-170 `substitute_with_dict(tokens, _dict, start)`; the in-place
update becomes the returned list. -/
def substituteWithDict (tokens : List Str) (d : List (Str × Str)) (start : Nat) : List Str :=
  tokens.take start ++ (tokens.drop start).map (subToken d)

/-- The patterns accepted by `match` and `Instruction.match`: `None`, a callable, a
string, or a collection of strings. -/
inductive Pat where
  | any
  | pred (p : Str → Bool)
  | str (s : Str)
  | coll (l : List Str)

/-- utils.py:177-188: does one item match one pattern? -/
def Pat.matches₀ (tok : Str) : Pat → Bool
  | .any => true
  | .str s => upper tok = upper s
  | .pred p => p tok
  | .coll l => l.any fun x => upper tok = upper x

/-- statements.py:64-76: does one token match one pattern?  Unlike utils.py, a string
pattern that fails as a whole is also tried as a collection of characters. -/
def Pat.matches (tok : Str) : Pat → Bool
  | .any => true
  | .pred p => p tok
  | .str s => upper tok = upper s || s.any fun x => upper tok = upper [x]
  | .coll l => l.any fun x => upper tok = upper x

/-- utils.py:173-189 `match(iterable, *args)` -/
def matchUtil : List Str → List Pat → Bool
  | [], [] => true
  | t :: ts, p :: ps => p.matches₀ t && matchUtil ts ps
  | _, _ => false

/-- statements.py:64-77: the loop of `Instruction.match` once the counts agree. -/
def matchAll : List Str → List Pat → Bool
  | [], [] => true
  | t :: ts, p :: ps => p.matches t && matchAll ts ps
  | _, _ => false

/-- statements.py:61-77 `Instruction.match(*args, start=1)`.  With fewer than `start`
tokens the count test `len(tokens) - start != len(args)` compares a negative number
and fails. -/
def instrMatch (tokens : List Str) (ps : List Pat) (start : Nat := 1) : Bool :=
  if tokens.length = ps.length + start then matchAll (tokens.drop start) ps else false

/-- statements.py:80-94: the loop of `Instruction.unbound_match`. -/
def matchPrefix : List Str → List Pat → Bool
  | _, [] => true
  | t :: ts, p :: ps => p.matches t && matchPrefix ts ps
  | [], _ :: _ => false

/-- statements.py:79-95 `Instruction.unbound_match`: `some next` on a match, where
`next` is the index of the first token after the matched ones.  (With no patterns
Python fails on the unbound loop variable; no caller does that.) -/
def instrUnboundMatch (tokens : List Str) (ps : List Pat) (start : Nat := 1) : Option Nat :=
  if ps.length + start ≤ tokens.length then
    if matchPrefix (tokens.drop start) ps then some (start + ps.length) else none
  else none

end Necro
