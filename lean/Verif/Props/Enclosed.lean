import Verif.Lemmas.TidyX86
import Verif.Spec.Processors
import Verif.Props.References
import Verif.Props.Regions

/-!
# C83: references stay inside the bytes of their own line

A reference that sticks out of the bytes of its line would make the linker change the bytes of the next line, or
fail with an index error at the end of the program.  For every processor and every source that assembles, each
reference lies inside the bytes of the line that recorded it, so a line's bytes are changed by its own references
only; the conditions the other properties put on a finished program (`LinksOwn`, `Ordinary`, `Blank`) hold.
-/

namespace Necro
open Spec
open M (throw get modify lift forEach times)

/-- The arithmetic of the linker is defined for the reference, and it stands for zero until it is resolved. -/
structure Workable (r : Reloc) : Prop where
  width : 1 ≤ r.bitsSize
  alignment : r.alignment ≠ 0
  blank : Blank r
  size : 1 ≤ r.size

theorem Workable.ordinary {r : Reloc} (h : Workable r) (hk : r.hook = none) : Ordinary r := ⟨h.width, h.alignment, hk⟩

theorem tidy_processor {d : Dialect} (h : Processor d) : TidyLines d := by
  cases h with
  | mos6502 => exact tidy_mos6502
  | lr35902 => exact tidy_lr35902
  | mips be => exact tidy_mips be
  | thumb => exact tidy_thumb
  | mc68000 => exact tidy_mc68000
  | i8086 => exact tidy_i8086
  | z80 => exact tidy_z80
  | ppc => exact tidy_ppc
  | x86 => exact tidy_x86

theorem goodLines_of {d : Dialect} (h : TidyLines d) : GoodLines (FitsIn Workable) d := fun key f tokens c blob rels hf hr r hm => by
  have := h key f tokens hf c _ _ hr blob rfl r hm
  exact ⟨this.1, this.2.width, this.2.alignment, this.2.blank, this.2.size⟩

theorem goodData : GoodData (FitsIn Workable) := by
  intro t p hp
  have hb : ∀ r : Reloc, r.filter = none → r.bits = none → Blank r := fun r h1 h2 => ⟨by unfold converted; rw [h1], by rw [h2]; nofun⟩
  simp only [dataRefs, List.mem_cons, List.not_mem_nil, or_false] at hp
  rcases hp with rfl | rfl | rfl | rfl | rfl <;> exact ⟨by simp, by simp, by simp, hb _ rfl rfl, by simp⟩

/-- The references recorded later are to bytes emitted later. -/
def NewRefs (s s' : St) : Prop := s.bytes.length ≤ s'.bytes.length ∧ ∀ e ∈ s'.relocs, e ∈ s.relocs ∨ s.bytes.length ≤ e.1

theorem rel_newRefs (Good : Reloc → Nat → Prop) : RefRel Good NewRefs where
  trans := fun h1 h2 => ⟨Nat.le_trans h1.1 h2.1, fun e he => by
    rcases h2.2 e he with h | h
    · exact h1.2 e h
    · exact .inr (Nat.le_trans h1.1 h)⟩
  same := fun s s' hr hb => ⟨hb, fun e he => .inl (by rw [hr] at he; exact he)⟩
  refs := fun s rels blob _ => by
    have hb := addRelocs_bytes rels s
    refine ⟨by simp [hb], fun e he => ?_⟩
    rcases mem_foldl_addReloc he with h | ⟨r, _, rfl⟩
    · exact .inl h
    · exact .inr (Nat.le_add_right _ _)

theorem x86_custom (env : Env) {Good : Reloc → Nat → Prop} {R : St → St → Prop} (h : RefRel Good R) : CustomOk x86 env R := by
  intro key f hf l
  simp only [x86] at hf
  split at hf
  · cases hf
    unfold x86Bits
    split
    · refine .bind h (.readOnly h fun s => rfl) fun o => ?_
      split
      · split
        · exact .modify h _ (fun _ => rfl) (fun _ => Nat.le_refl _)
        · exact .throw _
      · exact .throw _
    · exact .throw _
  · cases hf

theorem processor_custom {d : Dialect} (hp : Processor d) (env : Env) {Good : Reloc → Nat → Prop} {R : St → St → Prop} (h : RefRel Good R) : CustomOk d env R := by
  cases hp with
  | x86 => exact x86_custom env h
  | _ => intro key f hf; cases hf

theorem processor_keeps {d : Dialect} (hp : Processor d) (env : Env) : CustomKeeps d env Later := by
  cases hp with
  | x86 =>
    intro key f hf ts
    simp only [x86] at hf
    split at hf
    · cases hf
      have hd := (rel_later x86).toDataRel
      unfold x86Bits
      split
      · refine .bind hd (.readOnly hd (parseIntegerM_state _ _ _ _)) fun v => ?_
        split
        · split
          · intro s
            exact ⟨List.prefix_refl _, fun _ _ => rfl, List.prefix_refl _, fun h => h⟩
          · exact .throw hd _
        · exact .throw hd _
      · exact .throw hd _
    · cases hf
  | _ => exact noCustom (fun _ => rfl) _

/-- C83: after a source that assembles, every reference is inside the output and can be worked with; so is every reference there was before. -/
theorem C83_inside {d : Dialect} (hp : Processor d) (env : Env) (depth : Nat) (code : Str) (s s' : St) (h : assemble d env depth code s = (.ok (), s'))
    (hs : ∀ e ∈ s.relocs, Inside s.bytes.length e ∧ Workable e.2) : ∀ e ∈ s'.relocs, Inside s'.bytes.length e ∧ Workable e.2 :=
  ok_assemble (rel_enclosed Workable) goodData (goodLines_of (tidy_processor hp)) env (processor_custom hp env (rel_enclosed _)) depth code s _ s' h hs

/-- C83 for a program in one source. -/
theorem C83_program {d : Dialect} (hp : Processor d) (env : Env) (depth : Nat) (code : Str) (s : St) (h : assemble d env depth code d.init = (.ok (), s)) :
    ∀ e ∈ s.relocs, Inside s.bytes.length e ∧ Workable e.2 :=
  C83_inside hp env depth code d.init s h fun e he => by cases he

/-- C83: linking a program that assembled can fail for what the labels are, but not for where the references are. -/
theorem C83_fault {d : Dialect} (hp : Processor d) (env : Env) (depth : Nat) (code : Str) (s : St) (h : assemble d env depth code d.init = (.ok (), s))
    (hk : ∀ e ∈ s.relocs, e.2.hook = none) (x : Err) (hl : (link d .dummy s).1 = .error x) :
    ∃ e ∈ s.relocs, ∀ n, Fault (labelRelative d.sy s.labels) n e x := by
  have hin := C83_program hp env depth code s h
  have hpost : d.postLink = pure () := by cases hp <;> rfl
  obtain ⟨pre, e, post, hsp, hf, -⟩ := C38_error d hpost s (fun e he => (hin e he).2.ordinary (hk e he)) x hl
  have he : e ∈ s.relocs := by rw [hsp]; simp
  refine ⟨e, he, fun n => ?_⟩
  cases hf with
  | expr h => exact .expr h
  | unknown h => exact .unknown h
  | misaligned h1 h2 => exact .misaligned h1 h2
  | negative h1 h2 h3 => exact .negative h1 h2 h3
  | tooWide h1 h2 => exact .tooWide h1 h2
  | noField h1 h2 h3 => exact .noField h1 h2 h3
  | outside h1 h2 => exact absurd (hin _ he).1 (by unfold Inside; simp only; omega)

theorem execStmts_at {d : Dialect} {env : Env} {n : Nat} {rec : Str → M Unit} {pre post : List Stmt} {st : Stmt} {s s' : St}
    (h : execStmts d env n rec (pre ++ st :: post) s = (.ok (), s')) :
    ∃ s0 s1, forEach pre (execStmt d env n rec) s = (.ok (), s0) ∧ execStmt d env n rec st s0 = (.ok (), s1) ∧ execStmts d env n rec post s1 = (.ok (), s') := by
  unfold execStmts at h ⊢
  rw [bind_eq, forEach_append] at h
  rcases h0 : forEach pre (execStmt d env n rec) s with ⟨r, s0⟩
  rw [h0] at h
  cases r with
  | error e => cases h
  | ok u =>
    simp only [forEach, bind_eq, M.bind] at h
    rcases h1 : execStmt d env n rec st s0 with ⟨r, s1⟩
    rw [h1] at h
    cases r with
    | error e => cases h
    | ok u =>
      refine ⟨s0, s1, rfl, h1, ?_⟩
      rw [bind_eq]
      exact h

/-- C83: a line of a program that assembles and links is in the program, and the only references to touch its bytes are its own. -/
theorem C83_line {d : Dialect} (hp : Processor d) (env : Env) (depth : Nat) (code : Str) (pre post : List Stmt) (tokens : List Str) (ln : Nat)
    (htok : tokenize code = .ok (pre ++ ⟨.instr, tokens, ln⟩ :: post)) (s' : St) (h : assemble d env (depth + 2) code d.init = (.ok (), s')) :
    ∃ s, forEach pre (execStmt d env (depth + 1) (assemble d env (depth + 1))) d.init = (.ok (), s) ∧
      (s.recording = none → ∀ t rest, substituteWithDict tokens s.defines 0 = t :: rest → s.macros.lookup (d.key t) = none →
        ∃ blob rels, Emits d (ctxOf d s) t rest blob rels ∧ InProgram d s t rest s' ∧
          ∀ s'', link d .dummy s' = (.ok (), s'') → (∀ e ∈ s'.relocs, e.2.hook = none) → LinksOwn d s' s'' s.bytes.length blob.length rels) := by
  have hrun := h
  unfold assemble at h
  rw [bind_eq, htok] at h
  obtain ⟨s, s1, h0, h1, h2⟩ := execStmts_at (s := d.init) h
  refine ⟨s, h0, fun hrec t rest hsub hmac => ?_⟩
  have hgood := goodLines_of (tidy_processor hp)
  have hin : Enclosed Workable s := by
    refine OkKeeps.forEach (rel_enclosed Workable) (fun st _ => ok_execStmt (rel_enclosed Workable) goodData hgood env _ _ (fun c => ?_) (processor_custom hp env (rel_enclosed _)) st) _ _ _ h0 ?_
    · exact ok_assemble (rel_enclosed Workable) goodData hgood env (processor_custom hp env (rel_enclosed _)) _ _
    · intro e he; cases he
  have hnew : NewRefs s1 s' :=
    ok_execStmts (rel_newRefs _) goodData hgood env _ _ (fun c => ok_assemble (rel_newRefs _) goodData hgood env (processor_custom hp env (rel_newRefs (FitsIn Workable))) _ _)
      (processor_custom hp env (rel_newRefs (FitsIn Workable))) _ _ _ _ h2
  have hlater : Later s1 s' := by
    have := C54_statements d env (processor_keeps hp env) (depth + 1) (depth + 1) post s1
    rw [h2] at this
    exact this
  have h1' : execInstr d (depth + 1) none ⟨.instr, tokens, ln⟩ s = (.ok (), s1) := h1
  obtain ⟨blob, rels, hem, hs1⟩ := (execInstr_emits d depth tokens ln s s1 hrec t rest hsub hmac).1 h1'
  refine ⟨blob, rels, hem, .mk hrec hsub hmac h1' (hlater.kept _), fun s'' hl hk => ?_⟩
  have hbytes : s1.bytes.length = s.bytes.length + blob.length := by
    rw [hs1]; simp [emitted]
  refine ⟨hl, fun e he => (C83_program hp env (depth + 2) code s' hrun e he).2.ordinary (hk e he), ?_, ?_⟩
  · have := C54_one_each d env (processor_keeps hp env) _ (.step (depth + 2) code d.init .init)
    rw [hrun] at this
    exact this
  · intro f hf j hj1 hj2 hc
    rcases hnew.2 f hf with hf | hf
    · rw [hs1] at hf
      rcases mem_foldl_addReloc hf with hf | hf
      · have h3 : f.1 + f.2.size ≤ s.bytes.length := (hin f hf).1
        exact absurd hc (by unfold Covers; omega)
      · exact hf
    · exact absurd hc (by unfold Covers; omega)

/-- The conditions of the properties about one reference follow from those about the references of a line. -/
theorem Spec.LinksOwn.clear {d : Dialect} {s s' : St} {a n : Nat} {r : Reloc} (h : LinksOwn d s s' a n [r]) : LinksClear d s s' a n (a + r.offset) where
  ok := h.ok
  ordinary := h.ordinary
  nodup := h.nodup
  clear := fun f hf hne j h1 h2 hc => by
    obtain ⟨r', hr', rfl⟩ := h.own f hf j h1 h2 hc
    cases List.mem_singleton.1 hr'
    exact hne rfl

/-- C83: what C82 asks of the references of an object file holds in every program that assembles and has no label as ascii text. -/
theorem C83_object {d : Dialect} (hp : Processor d) (env : Env) (depth : Nat) (code : Str) (s : St) (h : assemble d env depth code d.init = (.ok (), s))
    (hk : ∀ e ∈ s.relocs, e.2.hook = none) : (∀ e ∈ s.relocs, Ordinary e.2) ∧ (∀ e ∈ s.relocs, elsewhere d s.labels e.2 = true → Blank e.2) :=
  ⟨fun e he => (C83_program hp env depth code s h e he).2.ordinary (hk e he), fun e he _ => (C83_program hp env depth code s h e he).2.blank⟩

/-! ## Examples -/

/-- A program with references from instructions and from data, one of them in the last bytes. -/
def exEnds : Str := "CALL sub\nMOV AX, table\nsub: RET\ntable: .dw sub\nJZ sub\n.dw table\n".toList

example : ((assemble i8086 {} 3 exEnds {}).1.toOption, (assemble i8086 {} 3 exEnds {}).2.bytes.length, (assemble i8086 {} 3 exEnds {}).2.relocs.map fun e => (e.1, e.2.size)) =
    (some (), 13, [(1, 2), (4, 2), (7, 2), (10, 1), (11, 2)]) := by decide +kernel

example : ∀ e ∈ (assemble i8086 {} 3 exEnds {}).2.relocs, Inside (assemble i8086 {} 3 exEnds {}).2.bytes.length e ∧ Workable e.2 :=
  C83_program .i8086 {} 3 exEnds _ (run_ok (by decide +kernel))

/-- The jump to a label defined later, between two other lines: only its own reference touches its bytes. -/
def exBetween : Str := "NOP\nJMP later\nlater: JMP later\n".toList

example : (tokenize exBetween).toOption = some [⟨.instr, ["NOP".toList], 1⟩, ⟨.instr, ["JMP".toList, "later".toList], 2⟩, ⟨.label, ["later".toList], 3⟩,
    ⟨.instr, ["JMP".toList, "later".toList], 3⟩] := by decide +kernel

example : ∃ r : Reloc, r.label = "later".toList ∧ LinksClear mos6502 (assemble mos6502 {} 3 exBetween {}).2 (link mos6502 .dummy (assemble mos6502 {} 3 exBetween {}).2).2 1 3 (1 + r.offset) := by
  obtain ⟨s, h0, h⟩ := C83_line .mos6502 {} 1 exBetween [⟨.instr, ["NOP".toList], 1⟩] [⟨.label, ["later".toList], 3⟩, ⟨.instr, ["JMP".toList, "later".toList], 3⟩]
    ["JMP".toList, "later".toList] 2 (by decide +kernel) _ (run_ok (by decide +kernel))
  obtain rfl : s = (M.forEach [⟨.instr, ["NOP".toList], 1⟩] (execStmt mos6502 {} 2 (assemble mos6502 {} 2)) mos6502.init).2 := by rw [h0]
  obtain ⟨blob, rels, he, -, hl⟩ := h (by decide +kernel) "JMP".toList ["later".toList] (by decide +kernel) (by decide +kernel)
  have he' : Emits mos6502 (ctxOf mos6502 (M.forEach [⟨.instr, ["NOP".toList], 1⟩] (execStmt mos6502 {} 2 (assemble mos6502 {} 2)) mos6502.init).2) "JMP".toList ["later".toList]
    [0x4C, 0, 0] [{ label := "later".toList, size := 2, bitsSize := 16, offset := 1 }] := .handler rfl (Prod.ext (by decide +kernel) rfl)
  obtain ⟨rfl, rfl⟩ := Emits.unique he he'
  have := (hl _ (pair_ok (by decide +kernel)) (by decide +kernel)).clear
  exact ⟨_, rfl, this⟩

/-- An undefined label in the last bytes: the fault is the label, whatever the length of the output. -/
example : ∃ e ∈ (assemble mos6502 {} 3 "NOP\nLDA nowhere\n".toList {}).2.relocs, ∀ n,
    Fault (labelRelative mos6502.sy (assemble mos6502 {} 3 "NOP\nLDA nowhere\n".toList {}).2.labels) n e (.unknownLabel "nowhere".toList) := by
  have h := C83_fault .mos6502 {} 3 "NOP\nLDA nowhere\n".toList (assemble mos6502 {} 3 "NOP\nLDA nowhere\n".toList {}).2 (run_ok (by decide +kernel)) (by decide +kernel)
    (.unknownLabel "nowhere".toList) (by decide +kernel)
  exact h

end Necro
