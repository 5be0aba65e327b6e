import Verif.Model.Platform.Nes
import Verif.Model.Link
/-!
# The debug symbol files written by `main` of /repo/necroassembler/platforms/nes.py
-/

namespace Necro

open M (forEach)

/-- `format(n, '0<width>X')`: upper case hexadecimal, zero padded to `width` characters, the
sign counting towards the width. -/
def fmtHex (width : Nat) : Int → Str
  | .ofNat n => List.replicate (width - (Nat.toDigits 16 n).length) '0' ++ upper (Nat.toDigits 16 n)
  | .negSucc n =>
    '-' :: (List.replicate (width - 1 - (Nat.toDigits 16 (n + 1)).length) '0' ++ upper (Nat.toDigits 16 (n + 1)))

/-- nes.py:131-132, 139-140: one line of a symbol file. -/
def nlLine (address : Int) (label : Str) : Except Err Bytes :=
  encodeAscii (['$'] ++ fmtHex 4 address ++ ['#'] ++ label ++ ['#', '\r', '\n'])

/-- nes.py:128-132, 136-140: the loop over the labels, `names` being those still to come.
Comparing `None` with a number raises TypeError. -/
def nlLoop (sy : NumSyntax) (ls : Labels) (lo hi : Int) : List Str → Except Err Bytes
  | [] => .ok []
  | name :: names =>
    match labelAddress sy ls name with
    | .error e => .error e
    | .ok none => .error .typeError
    | .ok (some address) =>
      match (if lo ≤ address ∧ address ≤ hi then nlLine address name else .ok []) with
      | .error e => .error e
      | .ok line =>
        match nlLoop sy ls lo hi names with
        | .error e => .error e
        | .ok rest => .ok (line ++ rest)

/-- nes.py:126-132 `<out>.0.nl` -/
def nesRomSymbols (s : St) : Except Err Bytes := nlLoop nes.sy s.labels 0x8000 0xFFFF (s.labels.map Prod.fst)

/-- nes.py:134-140 `<out>.ram.nl` -/
def nesRamSymbols (s : St) : Except Err Bytes := nlLoop nes.sy s.labels 0x0000 0x7FF (s.labels.map Prod.fst)

/-- nes.py:119-140 `main`: the contents of the three files.  The files of a run that fails
half-way are not modelled. -/
def nesMain (env : Env) (depth : Nat) (source : Str) : Except Err (Bytes × Bytes × Bytes) :=
  match mainRun nes env depth [source] nes.init with
  | (.error e, _) => .error e
  | (.ok (), s) =>
    match nesRomSymbols s with
    | .error e => .error e
    | .ok rom =>
      match nesRamSymbols s with
      | .error e => .error e
      | .ok ram => .ok (s.bytes, rom, ram)

end Necro
