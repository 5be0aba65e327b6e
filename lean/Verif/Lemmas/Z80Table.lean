import Verif.Lemmas.Z80Index
/-!
# Facts about the whole table of the Z80
-/

namespace Necro
open Spec

/-! ## the words of an instruction -/

/-- The arguments with which the table would write an operand. -/
def z80Key : Z80Arg → List String
  | .reg n | .cond n | .mode n | .op n => [n]
  | .mem n => ["(", n, ")"]
  | .idx iy => ["(", if iy then "IY+d" else "IX+d", ")"]
  | .bit n => [toString n]
  | .vec n => [z80VecText n]
  | .zero => ["0"]
  | .imm8 => ["n"]
  | .imm16 => ["nn"]
  | .mem16 => ["(", "nn", ")"]
  | .port => ["(", "n", ")"]
  | .rel => ["e"]

/-- A word without letters. -/
def z80Exact (s : String) : Bool := s.toList.all fun c => !c.isLower && !c.isUpper

/-- The words of the operand cannot be taken for the arguments with a value. -/
def z80ArgOk : Z80Arg → Bool
  | .reg n | .cond n | .op n | .mem n => (z80Hook n).isNone
  | .mode n => (z80Hook n).isNone && z80Exact n
  | .bit n => (z80Hook (toString n)).isNone && z80Exact (toString n)
  | .vec n => (z80Hook (z80VecText n)).isNone
  | _ => true

/-- What the codes of a row stand for. -/
def z80RowShape : List Nat → Option (String × List Z80Arg)
  | [c] =>
    match c / 256 with
    | 0 => if c = 0xCB ∨ c = 0xED ∨ c = 0xDD ∨ c = 0xFD then none else z80Shape c
    | 0xCB => z80ShapeCb (c % 256)
    | 0xED => z80ShapeEd (c % 256)
    | 0xDD => if c % 256 = 0xCB then none else z80ShapeIndex false (c % 256)
    | 0xFD => if c % 256 = 0xCB then none else z80ShapeIndex true (c % 256)
    | _ => none
  | [0xDDCB, o] => if o < 256 then z80ShapeIndexCb false o else none
  | [0xFDCB, o] => if o < 256 then z80ShapeIndexCb true o else none
  | _ => none

/-- The value that the row stores agrees with the operands. -/
def z80HookOk (h : Option Z80Hook) (args : List Z80Arg) : Bool :=
  match h with
  | none => !args.any Z80Arg.isIdx && z80Data args == .none
  | some .nn => !args.any Z80Arg.isIdx && z80Data args == .word
  | some .n => !args.any Z80Arg.isIdx && z80Data args == .byte
  | some .e => !args.any Z80Arg.isIdx && z80Data args == .signed
  | some .index => args.any Z80Arg.isIdx && z80Data args == .none
  | some .d => false

def z80RowOk (r : List Nat × String × List String) : Bool :=
  match z80RowShape r.1 with
  | none => false
  | some (m, as) =>
    m == r.2.1 && as.flatMap z80Key == r.2.2 && as.all z80ArgOk && z80HookOk ((z80HookOf r.2.2 0).map (·.1)) as &&
      decide ((r.2.2.filter fun a => (z80Hook a).isSome).length ≤ 1) && (r.1.length == 1 || (z80HookOf r.2.2 0).map (·.1) == some .index) &&
      ((z80HookOf r.2.2 0).map (·.1) != some .e || decide (r.1.headD 0 ≤ 0xFF))

/-- The rows that are not an instruction. -/
def z80OddRows : List (List Nat × String × List String) :=
  [([0xDD36], "LD", ["(", "IX+d", ")", "n"]), ([0xFD36], "LD", ["(", "IY+d", ")", "n"]),
   ([0xED70], "IN", ["F", "(", "C", ")", "* / IN ", "(", "C", ")"])]

theorem rows0_ok : ∀ r ∈ z80Rows0, z80RowOk r = true ∨ r ∈ z80OddRows := by decide +kernel
theorem rows1_ok : ∀ r ∈ z80Rows1, z80RowOk r = true ∨ r ∈ z80OddRows := by decide +kernel
theorem rows2_ok : ∀ r ∈ z80Rows2, z80RowOk r = true ∨ r ∈ z80OddRows := by decide +kernel
theorem rows3_ok : ∀ r ∈ z80Rows3, z80RowOk r = true ∨ r ∈ z80OddRows := by decide +kernel
theorem rows4_ok : ∀ r ∈ z80Rows4, z80RowOk r = true ∨ r ∈ z80OddRows := by decide +kernel
theorem rows5_ok : ∀ r ∈ z80Rows5, z80RowOk r = true ∨ r ∈ z80OddRows := by decide +kernel
theorem rows6_ok : ∀ r ∈ z80Rows6, z80RowOk r = true ∨ r ∈ z80OddRows := by decide +kernel

theorem rows_ok {r : List Nat × String × List String} (h : r ∈ z80Table) : z80RowOk r = true ∨ r ∈ z80OddRows := by
  simp only [z80Table, List.mem_append] at h
  rcases h with (((((h | h) | h) | h) | h) | h) | h
  · exact rows0_ok r h
  · exact rows1_ok r h
  · exact rows2_ok r h
  · exact rows3_ok r h
  · exact rows4_ok r h
  · exact rows5_ok r h
  · exact rows6_ok r h

def z80Word (i : Nat) : String := z80Words.getD i ""

/-! ## every instruction has an entry -/

/-- The instructions that cannot be written. -/
def z80LostShape (p : String × List Z80Arg) : Bool :=
  p ∈ ([("LD", [.idx false, .imm8]), ("LD", [.idx true, .imm8]), ("LD", [.idx false, .reg "A"]), ("LD", [.idx true, .reg "A"]),
    ("LD", [.reg "A", .idx false]), ("LD", [.reg "A", .idx true]), ("IN", [.reg "F", .mem "C"])] : List (String × List Z80Arg))

def z80EntryOk (p : Option (String × List Z80Arg)) (e : Option (Nat × List Nat × List Nat)) : Bool :=
  match p, e with
  | none, none => true
  | some (m, as), some (n, keys, codes) =>
    decide (n < 68) && m == z80Names.getD n "" && as.flatMap z80Key == keys.map z80Word && as.all z80ArgOk && keys.all (fun k => decide (k < 78)) &&
      (if codes.isEmpty then z80LostShape (m, as) else z80RowShape codes == some (m, as))
  | _, _ => false

theorem entries_none : ∀ o < 256, z80EntryOk (z80RowShape [o]) (z80Ops_none.getD o none) = true := by decide +kernel
theorem entries_cb : ∀ o < 256, z80EntryOk (z80ShapeCb o) (z80Ops_cb.getD o none) = true := by decide +kernel
theorem entries_ed : ∀ o < 256, z80EntryOk (z80ShapeEd o) (z80Ops_ed.getD o none) = true := by decide +kernel
theorem entries_dd : ∀ o < 256, z80EntryOk (z80RowShape [0xDD00 + o]) (z80Ops_dd.getD o none) = true := by decide +kernel
theorem entries_fd : ∀ o < 256, z80EntryOk (z80RowShape [0xFD00 + o]) (z80Ops_fd.getD o none) = true := by decide +kernel
theorem entries_ddcb : ∀ o < 256, z80EntryOk (z80ShapeIndexCb false o) (z80Ops_ddcb.getD o none) = true := by decide +kernel
theorem entries_fdcb : ∀ o < 256, z80EntryOk (z80ShapeIndexCb true o) (z80Ops_fdcb.getD o none) = true := by decide +kernel

theorem enc_words : ∀ n < 68, ∀ v ∈ z80Enc.getD n [], ∀ i ∈ v.2, i < 78 := by decide +kernel

end Necro
