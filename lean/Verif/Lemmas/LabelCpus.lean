import Verif.Lemmas.LabelStable
/-!
# Instructions and the labels that are defined

More labels make no difference to the handlers of the processors, except to the 6502, where a label decides between zero page and absolute addressing.
-/

namespace Necro
open Spec

/-- One step of the proof that a handler is not affected by more labels. -/
syntax "hstep" : tactic
macro_rules | `(tactic| hstep) => `(tactic| split)
macro_rules | `(tactic| hstep) => `(tactic| exact HStable.pure _)
macro_rules | `(tactic| hstep) => `(tactic| exact HStable.throw _)
macro_rules | `(tactic| hstep) => `(tactic| exact HStable.lift _)
macro_rules | `(tactic| hstep) => `(tactic| exact HStable.reloc _)
macro_rules | `(tactic| hstep) => `(tactic| exact HStable.parseInteger ..)
macro_rules | `(tactic| hstep) => `(tactic| exact HStable.parseIntegerOrLabel ..)
macro_rules | `(tactic| hstep) => `(tactic| refine HStable.ite ?_ ?_)
macro_rules | `(tactic| hstep) => `(tactic| refine HStable.bind ?_ fun _ => ?_)
macro_rules | `(tactic| hstep) => `(tactic| refine HStable.readBind (fun _ _ => rfl) fun _ => ?_)
macro_rules | `(tactic| hstep) => `(tactic| assumption)
macro "hstable" : tactic => `(tactic| repeat' with_reducible hstep)

theorem stable_packByte (l : List Int) : HStable (hPackByte l) := by unfold hPackByte; hstable
theorem stable_pack (be : Bool) (fs : List Fmt) (l : List Int) : HStable (hPack be fs l) := by unfold hPack; hstable
macro_rules | `(tactic| hstep) => `(tactic| exact stable_packByte _)
macro_rules | `(tactic| hstep) => `(tactic| exact stable_pack _ _ _)

/-! ## Game Boy -/

theorem stable_gbByte (kw : List (String × Nat)) (key : Str) : HStable (gbByte kw key) := by unfold gbByte; hstable
macro_rules | `(tactic| hstep) => `(tactic| exact stable_gbByte _ _)
theorem stable_gbByteThen (kw : List (String × Nat)) (key : Str) (v : Bytes) : HStable (gbByteThen kw key v) := by unfold gbByteThen; hstable
macro_rules | `(tactic| hstep) => `(tactic| exact stable_gbByteThen _ _ _)
theorem stable_gbOnly (kw : List (String × Nat)) (key : Str) : HStable (gbOnly kw key) := by unfold gbOnly; hstable
macro_rules | `(tactic| hstep) => `(tactic| exact stable_gbOnly _ _)
theorem stable_gbPrefixed (kw : List (String × Nat)) (key : Str) : HStable (gbPrefixed kw key) := by unfold gbPrefixed; hstable
macro_rules | `(tactic| hstep) => `(tactic| exact stable_gbPrefixed _ _)
theorem stable_gbData8 (a : Str) : HStable (gbData8 a) := by unfold gbData8; hstable
macro_rules | `(tactic| hstep) => `(tactic| exact stable_gbData8 _)
theorem stable_gbRel8 (a : Str) : HStable (gbRel8 a) := by unfold gbRel8; hstable
macro_rules | `(tactic| hstep) => `(tactic| exact stable_gbRel8 _)
theorem stable_gbData16 (a : Str) : HStable (gbData16 a) := by unfold gbData16; hstable
macro_rules | `(tactic| hstep) => `(tactic| exact stable_gbData16 _)
theorem stable_gbCb (kw : List (String × Nat)) (l : List Str) : HStable (gbCb kw l) := by unfold gbCb; hstable
macro_rules | `(tactic| hstep) => `(tactic| exact stable_gbCb _ _)
theorem stable_gbBuild (a b : Bool) (kw : List (String × Nat)) (l : List Str) : HStable (gbBuild a b kw l) := by unfold gbBuild; hstable
macro_rules | `(tactic| hstep) => `(tactic| exact stable_gbBuild _ _ _ _)
theorem stable_gbLdh (l : List Str) : HStable (gbLdh l) := by unfold gbLdh; hstable
macro_rules | `(tactic| hstep) => `(tactic| exact stable_gbLdh _)
theorem stable_gbLd (row : GbRow) (l : List Str) : HStable (gbLd row l) := by unfold gbLd; hstable
theorem stable_gbRet (row : GbRow) (l : List Str) : HStable (gbRet row l) := by unfold gbRet; hstable
theorem stable_gbStop (l : List Str) : HStable (gbStop l) := by unfold gbStop; hstable
theorem stable_gbRst (l : List Str) : HStable (gbRst l) := by unfold gbRst; hstable
macro_rules | `(tactic| hstep) => `(tactic| exact stable_gbLd _ _)
macro_rules | `(tactic| hstep) => `(tactic| exact stable_gbRet _ _)
macro_rules | `(tactic| hstep) => `(tactic| exact stable_gbStop _)
macro_rules | `(tactic| hstep) => `(tactic| exact stable_gbRst _)
theorem stable_gbMethod (row : GbRow) (l : List Str) : HStable (gbMethod row l) := by unfold gbMethod; hstable
macro_rules | `(tactic| hstep) => `(tactic| exact stable_gbMethod _ _)

theorem stable_gb {key : Str} {f} (h : lr35902.instrs key = some (.handler f)) (l : List Str) : HStable (f l) := by
  have h : gbInstr key = some (.handler f) := h
  unfold gbInstr at h
  repeat' split at h
  all_goals first
    | cases h
    | skip
  all_goals hstable

/-! ## MIPS -/

theorem stable_mipsReg (t : Str) : HStable (mipsReg t) := by unfold mipsReg; hstable
theorem stable_mipsImm16 (g : Bool) (t : Str) : HStable (mipsImm16 g t) := by unfold mipsImm16; hstable
theorem stable_mipsOffset (t : Str) : HStable (mipsOffset t) := by unfold mipsOffset; hstable
theorem stable_mipsAbs (t : Str) : HStable (mipsAbs t) := by unfold mipsAbs; hstable
theorem stable_mipsRel (t : Str) : HStable (mipsRel t) := by unfold mipsRel; hstable
theorem stable_mipsHalf (g : Bool) (t : Str) : HStable (mipsHalf g t) := by unfold mipsHalf; hstable
theorem stable_mipsShamt (t : Str) : HStable (mipsShamt t) := by unfold mipsShamt; hstable
theorem stable_mipsWord (be : Bool) (fs : List BitField) : HStable (mipsWord be fs) := by unfold mipsWord; hstable
macro_rules | `(tactic| hstep) => `(tactic| exact stable_mipsReg _)
macro_rules | `(tactic| hstep) => `(tactic| exact stable_mipsImm16 _ _)
macro_rules | `(tactic| hstep) => `(tactic| exact stable_mipsOffset _)
macro_rules | `(tactic| hstep) => `(tactic| exact stable_mipsAbs _)
macro_rules | `(tactic| hstep) => `(tactic| exact stable_mipsRel _)
macro_rules | `(tactic| hstep) => `(tactic| exact stable_mipsHalf _ _)
macro_rules | `(tactic| hstep) => `(tactic| exact stable_mipsShamt _)
macro_rules | `(tactic| hstep) => `(tactic| exact stable_mipsWord _ _)
theorem stable_mipsRun (be : Bool) (form : MipsForm) (n : Nat) (l : List Str) : HStable (mipsRun be form n l) := by
  cases form <;> (unfold mipsRun; hstable)

theorem stable_mips {be : Bool} {key : Str} {f} (h : (mipsOn be).instrs key = some (.handler f)) (l : List Str) : HStable (f l) := by
  have h : ((dget (mipsTable.map fun p => (upper p.1.toList, p.2)) key).map fun p => InstrDef.handler (mipsRun be p.1 p.2)) = some (.handler f) := h
  cases hd : dget (mipsTable.map fun p => (upper p.1.toList, p.2)) key with
  | none => rw [hd] at h; cases h
  | some p => rw [hd] at h; cases h; exact stable_mipsRun be p.1 p.2 l

/-! ## PowerPC -/

theorem stable_ppcReg (ns : List Str) (t : Str) : HStable (ppcReg ns t) := by unfold ppcReg; hstable
macro_rules | `(tactic| hstep) => `(tactic| exact stable_ppcReg _ _)
theorem stable_ppcKind (k : PpcKind) (hi lo : Nat) (t : Str) : HStable (k.value hi lo t) := by
  unfold PpcKind.value; dsimp only; hstable
macro_rules | `(tactic| hstep) => `(tactic| exact stable_ppcKind _ _ _ _)
theorem stable_ppcFields (l : List Str) : ∀ items i, HStable (ppcFields l items i)
  | [], _ => .pure _
  | x :: items, i => by
    have ih := fun i => stable_ppcFields l items i
    unfold ppcFields
    repeat' with_reducible first
      | exact ih _
      | hstep
macro_rules | `(tactic| hstep) => `(tactic| exact stable_ppcFields _ _ _)
theorem stable_ppcCall (base : Nat) (l : List Str) : ∀ vs, HStable (ppcCall base l vs)
  | [] => by unfold ppcCall; hstable
  | none :: vs => by
    have ih := stable_ppcCall base l vs
    unfold ppcCall
    hstable
  | some items :: vs => by
    have ih := stable_ppcCall base l vs
    unfold ppcCall
    hstable

theorem stable_ppc {key : Str} {f} (h : ppc.instrs key = some (.handler f)) (l : List Str) : HStable (f l) := by
  have h : (match ppcTable.find? fun g => upper g.1.toList == key with
    | some (_, (base, cond) :: rows) => some (InstrDef.handler fun tokens => ppcCall base tokens (cond :: rows.map Prod.snd))
    | _ => none) = some (.handler f) := h
  split at h
  · cases h; exact stable_ppcCall _ _ _
  · cases h

/-! ## Thumb -/

theorem stable_thLowReg (t : Str) : HStable (thLowReg t) := by unfold thLowReg; hstable
theorem stable_thHighReg (t : Str) : HStable (thHighReg t) := by unfold thHighReg; hstable
theorem stable_thOffset (n : Nat) (t : Str) : HStable (thOffset n t) := by unfold thOffset; hstable
theorem stable_thImm (t : Str) : HStable (thImm t) := by unfold thImm; hstable
theorem stable_thWord (t : Str) : HStable (thWord t) := by unfold thWord; hstable
theorem stable_thConv (o : ThOp) {g : Str → H Int} (h : o.conv = some g) (t : Str) : HStable (g t) := by
  unfold ThOp.conv at h
  cases o <;> cases h
  · exact stable_thLowReg t
  · exact stable_thHighReg t
  · exact stable_thImm t
  · exact stable_thWord t
  · dsimp only; hstable
  · exact stable_thOffset _ t
theorem stable_thApply : ∀ ops l, HStable (thApply ops l)
  | [], l => by unfold thApply; hstable
  | o :: ops, l => by
    have ih := stable_thApply ops
    unfold thApply
    cases l with
    | nil => hstable
    | cons t l =>
      dsimp only
      cases hc : o.conv with
      | none => exact ih _
      | some g => exact .bind (stable_thConv o hc t) fun _ => .bind (ih _) fun _ => .pure _
macro_rules | `(tactic| hstep) => `(tactic| exact stable_thApply _ _)
theorem stable_thBuild (f : ThForm) (l : List Str) : HStable (f.build l) := by unfold ThForm.build; hstable
macro_rules | `(tactic| hstep) => `(tactic| exact stable_thBuild _ _)
theorem stable_thRun : ∀ fs l, HStable (thRun fs l)
  | [], l => by unfold thRun; hstable
  | f :: fs, l => by
    have ih := stable_thRun fs l
    unfold thRun
    hstable
theorem stable_thPush (l : List Str) : HStable (thPush l) := by unfold thPush; hstable
theorem stable_thBl (l : List Str) : HStable (thBl l) := by unfold thBl; hstable

theorem stable_thumb {key : Str} {f} (h : thumb.instrs key = some (.handler f)) (l : List Str) : HStable (f l) := by
  have h : (if key = "BL".toList then some (.handler thBl) else if key = "PUSH".toList then some (.handler thPush)
    else (dget (thTable.map fun p => (p.1.toList, p.2)) key).map fun fs => InstrDef.handler (thRun fs)) = some (.handler f) := h
  split at h
  · cases h; exact stable_thBl l
  split at h
  · cases h; exact stable_thPush l
  · cases hd : dget (thTable.map fun p => (p.1.toList, p.2)) key with
    | none => rw [hd] at h; cases h
    | some p => rw [hd] at h; cases h; exact stable_thRun p l

/-! ## Z80 -/

theorem stable_z80Build (k : Z80Hook) (b : Bytes) (v : Str) : HStable (z80Build k b v) := by cases k <;> (unfold z80Build; hstable)
macro_rules | `(tactic| hstep) => `(tactic| exact stable_z80Build _ _ _)
theorem stable_z80Emit (l : List Str) (c : List Nat) (a : List String) : HStable (z80Emit l c a) := by unfold z80Emit; hstable
macro_rules | `(tactic| hstep) => `(tactic| exact stable_z80Emit _ _ _)
theorem stable_z80Call (l : List Str) : ∀ vs, HStable (z80Call l vs)
  | [] => by unfold z80Call; hstable
  | (c, a) :: vs => by
    have ih := stable_z80Call l vs
    unfold z80Call
    hstable

theorem stable_z80 {key : Str} {f} (h : z80.instrs key = some (.handler f)) (l : List Str) : HStable (f l) := by
  have h : (match z80Variants key with | [] => none | vs => some (InstrDef.handler fun tokens => z80Call tokens vs)) = some (.handler f) := h
  split at h
  · cases h
  · cases h; exact stable_z80Call _ _

/-! ## 68000 -/

theorem stable_m68Reg (t : Str) : HStable (m68Reg t) := by unfold m68Reg; hstable
theorem stable_m68Cond (t : Str) : HStable (m68Cond t) := by unfold m68Cond; hstable
macro_rules | `(tactic| hstep) => `(tactic| exact stable_m68Reg _)
macro_rules | `(tactic| hstep) => `(tactic| exact stable_m68Cond _)
theorem stable_m68IdxReg (t : Str) : HStable (m68IdxReg t) := by unfold m68IdxReg; hstable
theorem stable_m68Packer (t : Str) (a b : Nat) : HStable (m68Packer t a b) := by unfold m68Packer; hstable
theorem stable_m68Build (b : Int) (fs : List BitField) : HStable (m68Build b fs) := by unfold m68Build; hstable
macro_rules | `(tactic| hstep) => `(tactic| exact stable_m68IdxReg _)
macro_rules | `(tactic| hstep) => `(tactic| exact stable_m68Packer _ _ _)
macro_rules | `(tactic| hstep) => `(tactic| exact stable_m68Build _ _)
theorem stable_m68Try {α : Type} (l : List Str) (i : Nat) (black : List M68Mode) (mode : M68Mode) (ps : List Pat) {body : Nat → H α} {next : H α}
    (h1 : ∀ n, HStable (body n)) (h2 : HStable next) : HStable (m68Try l i black mode ps body next) := by
  unfold m68Try
  repeat' with_reducible first
    | exact h1 _
    | hstep
macro_rules | `(tactic| hstep) => `(tactic| refine stable_m68Try _ _ _ _ _ (fun _ => ?_) ?_)
theorem stable_m68Mode (l : List Str) (i o n : Nat) (black : List M68Mode) : HStable (m68Mode l i o n black) := by
  unfold m68Mode; dsimp only; hstable
macro_rules | `(tactic| hstep) => `(tactic| exact stable_m68Mode _ _ _ _ _)
theorem stable_m68ToAddress (l : List Str) (i : Nat) (o : M68Operand) : HStable (m68ToAddress l i o) := by unfold m68ToAddress; hstable
macro_rules | `(tactic| hstep) => `(tactic| exact stable_m68ToAddress _ _ _)
theorem stable_m68Run (k : M68Kind) (l : List Str) : HStable (m68Run k l) := by
  cases k <;> (unfold m68Run; dsimp only; hstable)

theorem stable_m68 {key : Str} {f} (h : mc68000.instrs key = some (.handler f)) (l : List Str) : HStable (f l) := by
  have h : (if key = "RTS".toList then some (.fixed [0x4E#8, 0x75#8])
    else if key = "NOP".toList then some (.fixed [0x4E#8, 0x71#8])
    else (dget (m68Table.map fun p => (p.1.toList, p.2)) key).map fun kind => InstrDef.handler (m68Run kind)) = some (.handler f) := h
  split at h
  · cases h
  · split at h
    · cases h
    · cases hk : dget (m68Table.map fun p => (p.1.toList, p.2)) key with
      | none => rw [hk] at h; cases h
      | some k => rw [hk] at h; cases h; exact stable_m68Run k l

/-! ## 8086 -/

theorem stable_i86Build (m : I86Modrm) : HStable (i86Build m) := by unfold i86Build; hstable
macro_rules | `(tactic| hstep) => `(tactic| exact stable_i86Build _)
theorem stable_i86Reg (a b : List Str) (i : Nat) (m : I86Modrm) : HStable (i86Reg a b i m) := by unfold i86Reg; hstable
theorem stable_i86Named (a : Str) (b : List Str) (i : Nat) (m : I86Modrm) : HStable (i86Named a b i m) := by unfold i86Named; hstable
theorem stable_i86Late (m : I86Modrm) : HStable (i86Late m) := by unfold i86Late; hstable
macro_rules | `(tactic| hstep) => `(tactic| exact stable_i86Reg _ _ _ _)
macro_rules | `(tactic| hstep) => `(tactic| exact stable_i86Named _ _ _ _)
macro_rules | `(tactic| hstep) => `(tactic| exact stable_i86Late _)
macro_rules | `(tactic| hstep) => `(tactic| refine HStable.tryCatch ?_ (fun _ => ?_) (fun _ => by with_unfolding_all rfl))
theorem stable_i86Mem (l : List Str) (i : Nat) (m : I86Modrm) : HStable (i86Mem l i m) := by unfold i86Mem; hstable
macro_rules | `(tactic| hstep) => `(tactic| exact stable_i86Mem _ _ _)
theorem stable_i86Either (a b : List Str) (i : Nat) (m : I86Modrm) : HStable (i86Either a b i m) := by unfold i86Either; hstable
macro_rules | `(tactic| hstep) => `(tactic| exact stable_i86Either _ _ _ _)
theorem stable_i86Arg (a : I86Arg) (l : List Str) (i : Nat) (m : I86Modrm) : HStable (a.run l i m) := by
  cases a <;> (unfold I86Arg.run; hstable)
macro_rules | `(tactic| hstep) => `(tactic| exact stable_i86Arg _ _ _ _)
theorem stable_i86Args (l : List Str) : ∀ as i m b, HStable (i86Args l as i m b)
  | [], _, _, _ => by unfold i86Args; hstable
  | a :: as, i, m, b => by
    have ih := stable_i86Args l as
    unfold i86Args
    repeat' with_reducible first
      | exact ih _ _ _
      | hstep
macro_rules | `(tactic| hstep) => `(tactic| exact stable_i86Args _ _ _ _ _)
theorem stable_i86Call (l : List Str) : ∀ vs, HStable (i86Call l vs)
  | [] => by unfold i86Call; hstable
  | (c, a) :: vs => by
    have ih := stable_i86Call l vs
    unfold i86Call
    hstable

theorem stable_i86 {key : Str} {f} (h : i8086.instrs key = some (.handler f)) (l : List Str) : HStable (f l) := by
  have h : (match i86Conds key with | [] => none | vs => some (InstrDef.handler fun tokens => i86Call tokens vs)) = some (.handler f) := h
  split at h
  · cases h
  · cases h; exact stable_i86Call _ _

/-! ## x86 -/

theorem stable_x86Build (n : Nat) (m : X86Modrm) : HStable (x86Build n m) := by unfold x86Build; hstable
macro_rules | `(tactic| hstep) => `(tactic| exact stable_x86Build _ _)
theorem stable_x86Late (b : List Nat) (m : X86Modrm) : HStable (x86Late b m) := by unfold x86Late; hstable
macro_rules | `(tactic| hstep) => `(tactic| exact stable_x86Late _ _)
theorem stable_x86Mem (l : List Str) (b : List Nat) (i : Nat) (m : X86Modrm) : HStable (x86Mem l b i m) := by unfold x86Mem; hstable
theorem stable_x86RegE (ns : List Str) (n : Nat) (t : Str) (b : List Nat) (m : X86Modrm) : HStable (x86RegE ns n t b m) := by unfold x86RegE; hstable
theorem stable_x86RegG (ns : List Str) (n : Nat) (t : Str) (b : List Nat) (i : Nat) (m : X86Modrm) : HStable (x86RegG ns n t b i m) := by unfold x86RegG; hstable
theorem stable_x86Imm (ns : List Nat) (t : Str) (b : List Nat) (m : X86Modrm) : HStable (x86Imm ns t b m) := by unfold x86Imm; hstable
macro_rules | `(tactic| hstep) => `(tactic| exact stable_x86Mem _ _ _ _)
macro_rules | `(tactic| hstep) => `(tactic| exact stable_x86RegE _ _ _ _ _)
macro_rules | `(tactic| hstep) => `(tactic| exact stable_x86RegG _ _ _ _ _ _)
macro_rules | `(tactic| hstep) => `(tactic| exact stable_x86Imm _ _ _ _)
theorem stable_x86Arg (a : X86Arg) (l : List Str) (b : List Nat) (i : Nat) (m : X86Modrm) : HStable (a.run l b i m) := by
  cases a <;> (unfold X86Arg.run; hstable)
macro_rules | `(tactic| hstep) => `(tactic| exact stable_x86Arg _ _ _ _ _)
theorem stable_x86Args (l : List Str) : ∀ as bs i m b, HStable (x86Args l as bs i m b)
  | [], _, _, _, _ => by unfold x86Args; hstable
  | a :: as, bs, i, m, b => by
    have ih := stable_x86Args l as
    unfold x86Args
    repeat' with_reducible first
      | exact ih _ _ _ _
      | hstep
macro_rules | `(tactic| hstep) => `(tactic| exact stable_x86Args _ _ _ _ _ _)
theorem stable_x86Call {next : H (Option Bytes)} (hn : HStable next) (l : List Str) : ∀ vs, HStable (x86Call next l vs)
  | [] => by unfold x86Call; hstable
  | (c, a) :: vs => by
    have ih := stable_x86Call hn l vs
    unfold x86Call
    hstable
theorem stable_x86Next : ∀ l, HStable (x86Next l)
  | [] => by unfold x86Next; hstable
  | t :: l => by
    have ih := stable_x86Next l
    unfold x86Next
    repeat' with_reducible first
      | exact stable_x86Call ih _ _
      | hstep

theorem stable_x86 {key : Str} {f} (h : x86.instrs key = some (.handler f)) (l : List Str) : HStable (f l) := by
  have h : (match x86Conds key with | [] => none | vs => some (InstrDef.handler fun tokens => x86Call (x86Next (tokens.drop 1)) tokens vs)) = some (.handler f) := h
  split at h
  · cases h
  · cases h; exact stable_x86Call (stable_x86Next _) _ _

end Necro
