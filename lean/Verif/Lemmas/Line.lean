import Verif.Lemmas.Handler
/-!
# Running one line
-/

namespace Necro
open Spec

/-- The bytes of a line, if it assembles. -/
def lineBytes (d : Dialect) (c : Ctx) (t : Str) (rest : List Str) : Option Bytes :=
  match d.instrs (d.key t) with
  | some (.handler f) =>
    match (f (t :: rest) c).1 with
    | .ok o => o
    | .error _ => none
  | some (.fixed b) => if rest.isEmpty then some b else none
  | none => none

theorem lineBytes_some {d : Dialect} {c : Ctx} {t : Str} {rest : List Str} {b : Bytes} (h : lineBytes d c t rest = some b) :
    ∃ rels, Emits d c t rest b rels := by
  unfold lineBytes at h
  split at h
  · next f hf =>
    split at h
    · next o ho => subst h; exact ⟨_, .handler hf (Prod.ext ho rfl)⟩
    · cases h
  · next hf =>
    split at h
    · next hr => cases h; rw [List.isEmpty_iff.1 hr]; exact ⟨_, .fixed hf rfl⟩
    · cases h
  · cases h

theorem lineBytes_none {d : Dialect} {c : Ctx} {t : Str} {rest : List Str} (h : lineBytes d c t rest = none) (b : Bytes) (rels : List Reloc) :
    ¬ Emits d c t rest b rels := by
  intro he
  unfold lineBytes at h
  cases he with
  | fixed hf hl => rw [hf] at h; subst hl; cases h
  | handler hf he => rw [hf] at h; simp only [he] at h; cases h

end Necro
