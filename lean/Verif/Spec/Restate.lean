import Verif.Spec.CaseProgram
import Verif.Spec.Split
/-!
# The same data in other numbers and texts
-/

namespace Necro.Spec

/-- The items of a line of data and the bytes they stand for. They are texts and numbers whose values do not depend on the labels of the program. -/
inductive ItemsFor (d : Dialect) (size : Nat) : List Str → Bytes → Prop
  | nil : ItemsFor d size [] []
  | cons {x xs out B} : (∀ labels, DataItem size d.bigEndian (fun t => parseInteger d.sy labels t (8 * size) false) x out false) → ItemsFor d size xs B →
      ItemsFor d size (x :: xs) (out ++ B)

/-- The bytes some lines of data stand for, one line after another, where the definitions are those of the table. -/
inductive LinesFor (d : Dialect) (table : List (Str × Str)) : List DataLine → Bytes → Prop
  | nil : LinesFor d table [] []
  | cons {p ps A B} (size : Nat) : p.Has d size → ItemsFor d size (p.items.map (replaced table)) A → LinesFor d table ps B → LinesFor d table (p :: ps) (A ++ B)

/-- The second source is the first with lines of data replaced by others that stand for the same bytes. The lines between them are as they were, or in
another letter case; through them it is followed what is known about definitions. -/
inductive RestatedLines (d : Dialect) : Known → List Stmt → List (Kind × List Str) → Known → Prop
  | nil (k : Known) : RestatedLines d k [] [] k
  | kept {k k1 k' l c l' c'} : RecasedLines d k l c k1 → RestatedLines d k1 l' c' k' → RestatedLines d k (l ++ l') (c ++ c') k'
  | data {r a k' l c B} (ps : List (DataLine × Nat)) (qs : List DataLine) : LinesFor d a (ps.map Prod.fst) B → LinesFor d a qs B → RestatedLines d (some (r, a)) l c k' →
      RestatedLines d (some (r, a)) (ps.map (fun p => ⟨.directive, p.1.token :: p.1.items, p.2⟩) ++ l) (qs.map (fun q => (.directive, q.token :: q.items)) ++ c) k'

/-- The sources of two programs, file by file: the same file, or one with other lines of data. -/
inductive RestatedFiles (d : Dialect) (text : Str → Option Str) : Known → List Str → List Str → Prop
  | nil {k} : RestatedFiles d text k [] []
  | same {k fs fs'} (f : Str) : RestatedFiles d text none fs fs' → RestatedFiles d text k (f :: fs) (f :: fs')
  | file {k k' fs fs' f f' c c' l l'} : text f = some c → text f' = some c' → tokenize c = .ok l → tokenize c' = .ok l' → RestatedLines d k l (l'.map content) k' →
      RestatedFiles d text k' fs fs' → RestatedFiles d text k (f :: fs) (f' :: fs')

end Necro.Spec
