import Verif.Spec.Compose
import Verif.Spec.Data
import Verif.Lemmas.Lookup
/-!
# Lines of data written in other ways
-/

namespace Necro.Spec

/-- A line of data, given by its directive and its items. -/
structure DataLine where
  token : Str
  items : List Str

/-- The directive of the line is one of those for items of `size` bytes. -/
def DataLine.Has (d : Dialect) (size : Nat) (p : DataLine) : Prop := ∃ name, (name, size) ∈ dataSizes ∧ IsDirectiveToken d p.token name

/-- The first program with some of its lines of data written differently: the items of a line are on several lines, in the same order, and the
directives have any of the names for data of that size. Everything else is the same, except for line numbers. -/
inductive Respelled (d : Dialect) : List Stmt → List (Kind × List Str) → Prop
  | nil : Respelled d [] []
  | keep {l l'} (st : Stmt) : Respelled d l l' → Respelled d (st :: l) (content st :: l')
  | data {l l'} (size : Nat) (p : DataLine) (line : Nat) (ps : List DataLine) : p.Has d size → (∀ q ∈ ps, q.Has d size) → ps.flatMap (·.items) = p.items →
      Respelled d l l' → Respelled d (⟨.directive, p.token :: p.items, line⟩ :: l) (ps.map (fun q => (.directive, q.token :: q.items)) ++ l')

/-- The sources of two programs, file by file: the same file, or one whose lines of data are written differently. -/
inductive RespelledFiles (d : Dialect) (text : Str → Option Str) : List Str → List Str → Prop
  | nil : RespelledFiles d text [] []
  | same {fs fs'} (f : Str) : RespelledFiles d text fs fs' → RespelledFiles d text (f :: fs) (f :: fs')
  | file {fs fs' f f' c c' l l'} : text f = some c → text f' = some c' → tokenize c = .ok l → tokenize c' = .ok l' → Respelled d l (l'.map content) →
      RespelledFiles d text fs fs' → RespelledFiles d text (f :: fs) (f' :: fs')

end Necro.Spec
