import Verif.Model.Programs
import Verif.Spec.Files
/-!
# The files a program may write, from its usage
-/

namespace Necro.Spec

/-- The programs with a `main` of their own, called with one source and one destination. -/
def ownMain : Tool → Bool
  | .gba | .genesis | .psx | .nes => true
  | _ => false

/-- The output files named by the arguments: the last one for `<sources> <destination>`, the second
one for the others, and next to it two name lists for the NES. -/
def outputs (t : Tool) (args : List Str) : List Str :=
  if ownMain t then
    match args with
    | _ :: out :: _ => if t = .nes then [out, out ++ ".0.nl".toList, out ++ ".ram.nl".toList] else [out]
    | _ => []
  else args.getLast?.toList

/-- A program wrote `data` to the file `name` and did nothing else. -/
def Wrote (disk : Disk) (name : Str) (data : Bytes) (disk' : Disk) : Prop :=
  disk' name = some data ∧ ∀ n, n ≠ name → disk' n = disk n

/-- Reading looks at one file at a time: with more files, those that could be read before read the same. -/
def ReadsFiles (m : Machine) : Prop :=
  ∀ disk disk' : Disk, (∀ n b, disk n = some b → disk' n = some b) → FewerFiles (m.view disk) (m.view disk')

end Necro.Spec
