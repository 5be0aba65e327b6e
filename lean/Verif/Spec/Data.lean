import Verif.Spec.Bits
import Verif.Spec.Text
import Verif.Model.State
/-!
# What the data directives should emit
-/

namespace Necro.Spec

/-- `out` is the UTF-16 little-endian encoding of the text. -/
inductive Utf16 : Str → Bytes → Prop
  | nil : Utf16 [] []
  | unit (c : Char) (a b : Byte) (s : Str) (out : Bytes) : ofLE [a, b] = c.toNat →
      Utf16 s out → Utf16 (c :: s) (a :: b :: out)
  | pair (c : Char) (a b x y : Byte) (s : Str) (out : Bytes) :
      0xD800 ≤ ofLE [a, b] → ofLE [a, b] < 0xDC00 → 0xDC00 ≤ ofLE [x, y] → ofLE [x, y] < 0xE000 →
      c.toNat = 0x10000 + (ofLE [a, b] - 0xD800) * 1024 + (ofLE [x, y] - 0xDC00) →
      Utf16 s out → Utf16 (c :: s) (a :: b :: x :: y :: out)

/-- `out` is the UTF-32 little-endian encoding of the text. -/
inductive Utf32 : Str → Bytes → Prop
  | nil : Utf32 [] []
  | unit (c : Char) (a b x y : Byte) (s : Str) (out : Bytes) : ofLE [a, b, x, y] = c.toNat →
      Utf32 s out → Utf32 (c :: s) (a :: b :: x :: y :: out)

/-- The text of a string argument in directives with items of 1, 2 or 4 bytes. -/
def TextBytes (size : Nat) (s : Str) (out : Bytes) : Prop :=
  match size with
  | 1 => (∀ c ∈ s, c.toNat < 128) ∧ out.map BitVec.toNat = s.map Char.toNat
  | 2 => ∃ r, out = 0xFF#8 :: 0xFE#8 :: r ∧ Utf16 s r
  | 4 => ∃ r, out = 0xFF#8 :: 0xFE#8 :: 0#8 :: 0#8 :: r ∧ Utf32 s r
  | _ => False

/-- Does the token start with a quote? -/
def Quoted (tok : Str) : Prop := tok.head? = some '"' ∨ tok.head? = some '\''

/-- What one argument contributes to the output: its bytes, and whether it is a reference
to a label.  `number` tells the value of a numeric argument, or that it is not a number. -/
inductive DataItem (size : Nat) (be : Bool) (number : Str → Except Err (Option Int)) : Str → Bytes → Bool → Prop
  | text (tok out) : Quoted tok → TextBytes size (tok.drop 1).dropLast out → DataItem size be number tok out false
  | num (tok out) (v : Int) : tok ≠ [] → ¬ Quoted tok → number tok = .ok (some v) → out.length = size →
      (ofBytes be out : Int) = v → DataItem size be number tok out false
  | ref (tok) : tok ≠ [] → ¬ Quoted tok → number tok = .ok none →
      DataItem size be number tok (List.replicate size 0#8) true

/-- The label references of a row of items, with the offset of each item. -/
def itemRefs (size : Nat) : Nat → List (Str × Bytes × Bool) → List (Nat × Reloc)
  | _, [] => []
  | at_, (tok, out, isRef) :: rest =>
    (if isRef then [(at_, { label := tok, size := size, bitsSize := 8 * size })] else []) ++
      itemRefs size (at_ + out.length) rest

/-- The data directives and the size of their items. -/
def dataSizes : List (String × Nat) :=
  [("db", 1), ("byte", 1), ("dw", 2), ("word", 2), ("dd", 4), ("dl", 4), ("dword", 4)]

/-- The bytes of one number of an included file: `size` bytes holding its value, the least
significant one first. -/
def CellBytes (size : Nat) (number : Str → Except Err (Option Int)) (cell : Str) (out : Bytes) : Prop :=
  ∃ v : Int, number cell = .ok (some v) ∧ out.length = size ∧ (ofLE out : Int) = v

/-- The byte of one item of an included json list: a json integer, or a string holding a number. -/
def JsonByte (number : Str → Except Err (Option Int)) : Int ⊕ Str → Bytes → Prop
  | .inl v, out => out.length = 1 ∧ (ofLE out : Int) = v
  | .inr text, out => CellBytes 1 number text out

/-- The state after `blob` has been put at the end of the output: nothing else changes but
the location counter, which moves by the length. -/
def grownBy (s : St) (blob : Bytes) : St :=
  { s with bytes := s.bytes ++ blob, counter := s.counter + blob.length }

/-- The directives that include csv files, and the size of a cell. -/
def csvSizes : List (String × Nat) := [("inccsv", 1), ("inccsv_le16", 2)]

end Necro.Spec
