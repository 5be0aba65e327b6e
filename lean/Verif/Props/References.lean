import Verif.Spec.Program
import Verif.Props.Invariants
import Verif.Lemmas.Handler
/-!
# C54: recorded references are never lost

A label that is not yet known leaves a reference for the linker.  Whatever is assembled later, and
whether it succeeds or raises, the references to the bytes already emitted stay as they are.
-/

namespace Necro
open Spec
open M (throw get modify lift forEach times)

theorem Spec.Later.same {s s' : St} (h1 : s'.bytes = s.bytes) (h2 : s'.relocs = s.relocs) (h3 : s'.labels = s.labels) : Later s s' where
  bytes := by rw [h1]; exact List.prefix_refl _
  refs := fun i _ => by rw [h2]
  labels := by rw [h3]; exact List.prefix_refl _
  nodup := by rw [h2]; exact id

theorem Spec.Later.kept {s s' : St} (h : Later s s') (a : Nat) : Kept a s s' where
  length := h.bytes.length_le
  bytes := fun i _ hi => by
    obtain ⟨z, hz⟩ := h.bytes
    rw [← hz, List.getElem?_append_left hi]
  refs := fun i _ hi => h.refs i hi
  labels := h.labels
  nodup := h.nodup

theorem rel_later (d : Dialect) : AsmRel d Later where
  refl := fun s => .same rfl rfl rfl
  trans := fun h1 h2 => ⟨h1.bytes.trans h2.bytes,
    fun i hi => by rw [h2.refs i (Nat.lt_of_lt_of_le hi h1.bytes.length_le), h1.refs i hi], h1.labels.trans h2.labels,
    fun h => h2.nodup (h1.nodup h)⟩
  append := fun s b => ⟨List.prefix_append _ _, fun _ _ => rfl, List.prefix_refl _, id⟩
  reloc := fun s r => ⟨List.prefix_refl _, fun i hi => by
      rw [← dget_eq_lookup_nat, ← dget_eq_lookup_nat]
      exact dget_dset_ne _ _ (by omega), List.prefix_refl _, fun h => by
      show (dkeys (dset s.relocs (s.bytes.length + r.offset) r)).Nodup
      exact dkeys_nodup_dset _ _ _ h⟩
  macros := fun s m => .same rfl rfl rfl
  recording := fun s m => .same rfl rfl rfl
  rep := fun s m => .same rfl rfl rfl
  log := fun s m => .same rfl rfl rfl
  defines := fun s m => .same rfl rfl rfl
  exports := fun s m _ => .same rfl rfl rfl
  pad := fun s b => ⟨List.prefix_append _ _, fun _ _ => rfl, List.prefix_refl _, id⟩
  org := fun s a b _ _ _ => .same rfl rfl rfl
  ram := fun s n _ => .same rfl rfl rfl
  label := fun s k h1 h2 h3 h4 => ⟨List.prefix_refl _, fun _ _ => rfl, (rel_labels d).label s k h1 h2 h3 h4, id⟩
  closeSec := fun s n sec _ _ _ => .same rfl rfl rfl
  openSec := fun s n p _ _ _ => .same rfl rfl rfl

/-- C54: assembling any further source keeps the references to the bytes already emitted. -/
theorem C54_kept (d : Dialect) (env : Env) (hc : CustomKeeps d env Later) (depth : Nat) (code : Str) (s : St) :
    ∀ i < s.bytes.length, (assemble d env depth code s).2.relocs.lookup i = s.relocs.lookup i :=
  (keeps_assemble (rel_later d) env hc depth code s).refs

/-- After `.dw later`, assembling the definition of the label keeps the reference at position 0. -/
example : (assemble mos6502 {} 3 "NOP\nlater: NOP\n".toList
    { bytes := [0, 0], counter := 2, relocs := [(0, { label := "later".toList, size := 2, bitsSize := 16 })] }).2.relocs.lookup 0 =
      some { label := "later".toList, size := 2, bitsSize := 16 } :=
  C54_kept mos6502 {} (noCustom (fun _ => rfl) _) 3 _ _ 0 (by decide)

/-- C54 for a list of statements. -/
theorem C54_statements (d : Dialect) (env : Env) (hc : CustomKeeps d env Later) (depth n : Nat) (stmts : List Stmt) (s : St) :
    Later s (execStmts d env depth (assemble d env n) stmts s).2 :=
  keeps_execStmts (rel_later d) env depth _ (fun c => keeps_assemble (rel_later d) env hc n c) hc stmts s

/-- C54: at most one reference is recorded per output position. -/
theorem C54_one_each (d : Dialect) (env : Env) (hc : CustomKeeps d env Later) (s : St) (hr : Reach d env s) :
    (s.relocs.map Prod.fst).Nodup :=
  (reach_of_rel (rel_later d) hc hr).nodup (by simp [Dialect.init])

/-- C54: the references of a successful instruction are found at their position in the output. -/
theorem C54_instruction (d : Dialect) (depth : Nat) (tokens : List Str) (l : Nat) (s s' : St) (hr : s.recording = none)
    (t : Str) (rest : List Str) (ht : substituteWithDict tokens s.defines 0 = t :: rest)
    (hm : s.macros.lookup (d.key t) = none) (blob : Bytes) (r : Reloc) (he : Emits d (ctxOf d s) t rest blob [r])
    (h : execInstr d (depth + 1) none ⟨.instr, tokens, l⟩ s = (.ok (), s')) :
    s'.bytes = s.bytes ++ blob ∧ s'.relocs.lookup (s.bytes.length + r.offset) = some r ∧ Later s s' := by
  obtain ⟨b', r', he', rfl⟩ := (execInstr_emits d depth tokens l s s' hr t rest ht hm).1 h
  obtain ⟨rfl, rfl⟩ := Emits.unique he he'
  refine ⟨rfl, ?_, ?_⟩
  · rw [← dget_eq_lookup_nat]; exact dget_dset_self _ _ _
  · have := keeps_execInstr (rel_later d).toMetaRel.toInstrRel d (depth + 1) none ⟨.instr, tokens, l⟩ s
    rw [h] at this
    exact this

/-- C54: an instruction line is accepted exactly when the instruction assembles, and then its bytes are added to the output;
the properties of the processors speak of `Emits`. -/
theorem C54_line (d : Dialect) (depth : Nat) (tokens : List Str) (l : Nat) (s : St) (hr : s.recording = none)
    (t : Str) (rest : List Str) (ht : substituteWithDict tokens s.defines 0 = t :: rest) (hm : s.macros.lookup (d.key t) = none) :
    (∀ s', execInstr d (depth + 1) none ⟨.instr, tokens, l⟩ s = (.ok (), s') →
      ∃ blob rels, Emits d (ctxOf d s) t rest blob rels ∧ s'.bytes = s.bytes ++ blob ∧ s'.pc = s.pc + blob.length) ∧
    ∀ blob rels, Emits d (ctxOf d s) t rest blob rels → ∃ s', execInstr d (depth + 1) none ⟨.instr, tokens, l⟩ s = (.ok (), s') := by
  refine ⟨?_, ?_⟩
  · intro s' h
    obtain ⟨blob, rels, he, rfl⟩ := (execInstr_emits d depth tokens l s s' hr t rest ht hm).1 h
    refine ⟨blob, rels, he, rfl, ?_⟩
    have : (rels.foldl addReloc s).org = s.org := by
      clear he h
      induction rels generalizing s with
      | nil => rfl
      | cons r rels ih => simp only [List.foldl_cons]; exact (ih (addReloc s r) hr ht hm)
    simp only [emitted, St.pc, this]
    omega
  · intro blob rels he
    exact ⟨_, (execInstr_emits d depth tokens l s _ hr t rest ht hm).2 ⟨blob, rels, he, rfl⟩⟩

/-- `NOP`, and `NOP 5`, which is refused. -/
example : (∃ s', execInstr mos6502 1 none ⟨.instr, ["NOP".toList], 1⟩ {} = (.ok (), s')) ∧
    ¬ ∃ s', execInstr mos6502 1 none ⟨.instr, ["NOP".toList, "5".toList], 1⟩ {} = (.ok (), s') := by
  refine ⟨(C54_line mos6502 0 _ 1 {} rfl "NOP".toList [] (by decide +kernel) rfl).2 [0xEA] [] (.fixed (by rfl) rfl), ?_⟩
  rintro ⟨s', h⟩
  obtain ⟨b, rels, he, -⟩ := (C54_line mos6502 0 _ 1 {} rfl "NOP".toList ["5".toList] (by decide +kernel) rfl).1 s' h
  cases he with
  | fixed _ h => cases h
  | handler hf _ => exact absurd hf (by intro h; cases h)

end Necro
