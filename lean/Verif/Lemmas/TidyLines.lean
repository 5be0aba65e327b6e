import Verif.Lemmas.Enclosed
import Verif.Props.ElfLink
import Verif.Model.Cpu.Mos6502
import Verif.Model.Cpu.Mips32
import Verif.Model.Cpu.Lr35902
import Verif.Model.Cpu.Thumb
import Verif.Model.Cpu.Mc68000
import Verif.Model.Cpu.PowerPC
import Verif.Model.Cpu.Z80
namespace Necro
open Spec

/-- What every reference a processor records is like. -/
structure Plain (r : Reloc) : Prop where
  width : 1 ≤ r.bitsSize
  alignment : r.alignment ≠ 0
  hook : r.hook = none
  size : 1 ≤ r.size
  blank : Blank r

/-- What a handler that succeeds returns and records. -/
def Sat (m : H α) (P : α → List Reloc → Prop) : Prop := ∀ c a l, m c = (.ok a, l) → P a l

namespace Sat

theorem mono {m : H α} {P Q : α → List Reloc → Prop} (h : Sat m P) (hpq : ∀ a l, P a l → Q a l) : Sat m Q :=
  fun c a l e => hpq a l (h c a l e)

theorem bind {m : H α} {f : α → H β} {P : α → List Reloc → Prop} {Q : β → List Reloc → Prop} (hm : Sat m P)
    (hf : ∀ a l, P a l → Sat (f a) fun b l' => Q b (l ++ l')) : Sat (m >>= f) Q := by
  intro c b l h
  change H.bind m f c = _ at h
  unfold H.bind at h
  rcases hx : m c with ⟨x, l1⟩
  rw [hx] at h
  cases x with
  | error e => cases h
  | ok a =>
    rcases hy : f a c with ⟨y, l2⟩
    simp only [hy] at h
    cases h
    exact hf a l1 (hm c a l1 hx) c b l2 hy

theorem pure {a : α} {P : α → List Reloc → Prop} (h : P a []) : Sat (pure a : H α) P := by
  intro c b l e; cases e; exact h
theorem throw {e : Err} {P : α → List Reloc → Prop} : Sat (H.throw e : H α) P := by intro c b l h; cases h
theorem lift {x : Except Err α} {P : α → List Reloc → Prop} (h : ∀ a, x = .ok a → P a []) : Sat (H.lift x) P := by
  intro c b l e
  unfold H.lift at e
  cases e; exact h b rfl
theorem read {P : Ctx → List Reloc → Prop} (h : ∀ c, P c []) : Sat H.read P := by intro c b l e; cases e; exact h c
theorem reloc {r : Reloc} {P : Unit → List Reloc → Prop} (h : P () [r]) : Sat (H.reloc r) P := by intro c b l e; cases e; exact h
theorem parseInteger {t bits s} {P : Option Int → List Reloc → Prop} (h : ∀ a, P a []) : Sat (H.parseInteger t bits s) P := by
  intro c b l e
  have : l = [] := (congrArg Prod.snd e).symm
  subst this; exact h b
theorem labelAddress {t} {P : Option Int → List Reloc → Prop} (h : ∀ a, P a []) : Sat (H.labelAddress t) P := by
  intro c b l e
  have : l = [] := (congrArg Prod.snd e).symm
  subst this; exact h b
theorem orLabel {r : Reloc} {s : Bool} {P : Int → List Reloc → Prop} (h1 : ∀ a, P a []) (h2 : P 0 [r]) : Sat (H.parseIntegerOrLabel r s) P := by
  intro c b l e
  unfold H.parseIntegerOrLabel at e
  split at e <;> cases e
  · exact h1 b
  · exact h2

/-- Nothing recorded. -/
def Silent (m : H α) : Prop := Sat m fun _ l => l = []

theorem skip {m : H α} {f : α → H β} {Q : β → List Reloc → Prop} (hm : Silent m) (hf : ∀ a, Sat (f a) Q) : Sat (m >>= f) Q :=
  hm.bind fun a l hl => by subst hl; exact hf a

end Sat
open Sat (Silent)

/-- A line that succeeds records good references within the bytes returned. -/
def LineOk (m : H (Option Bytes)) : Prop := Sat m fun o l => ∀ b, o = some b → ∀ r ∈ l, FitsIn Plain r b.length

theorem lineOk_none : LineOk (pure none) := .pure fun _ h => by cases h
theorem lineOk_silent {m : H (Option Bytes)} (h : Silent m) : LineOk m := h.mono fun _ _ e _ _ r hr => by subst e; cases hr
theorem lineOk_skip {m : H α} {f : α → H (Option Bytes)} (hm : Silent m) (hf : ∀ a, LineOk (f a)) : LineOk (m >>= f) := .skip hm hf

/-- A reference recorded, then `n` bytes returned. -/
theorem lineOk_const {m : H α} {f : α → H (Option Bytes)} {G : Reloc → Prop} (n : Nat) (hm : Sat m fun _ l => ∀ r ∈ l, G r) (hg : ∀ r, G r → FitsIn Plain r n)
    (hf : ∀ a, Sat (f a) fun o l => l = [] ∧ ∀ b, o = some b → b.length = n) : LineOk (m >>= f) := by
  refine hm.bind fun a l hl => (hf a).mono fun o l' ho b hb r hr => ?_
  obtain ⟨rfl, hn⟩ := ho
  rw [List.append_nil] at hr
  rw [hn b hb]
  exact hg r (hl r hr)

theorem Plain.simple {r : Reloc} (h1 : 1 ≤ r.bitsSize) (h2 : r.alignment ≠ 0) (h3 : r.hook = none) (h4 : r.filter = none)
    (h5 : ∀ hi lo, r.bits = some (hi, lo) → lo ≤ hi) (h6 : 1 ≤ r.size := by simp) : Plain r :=
  ⟨h1, h2, h3, h6, ⟨by unfold converted; rw [h4], h5⟩⟩

theorem len_packByte {l : List (Option Int)} {b : Bytes} (h : packByte l = .ok b) : b.length = l.length := by
  simpa [Fmt.size] using packAll_length (f := .B) h
theorem len_pack8s {l : List (Option Int)} {b : Bytes} (h : pack8s l = .ok b) : b.length = l.length := by
  simpa [Fmt.size] using packAll_length (f := .b) h
theorem len_packLe16u {l : List (Option Int)} {b : Bytes} (h : packLe16u l = .ok b) : b.length = l.length * 2 := by
  simpa [Fmt.size] using packAll_length (f := .H) h
theorem len_packLe16s {l : List (Option Int)} {b : Bytes} (h : packLe16s l = .ok b) : b.length = l.length * 2 := by
  simpa [Fmt.size] using packAll_length (f := .h) h
theorem len_packBe16u {l : List (Option Int)} {b : Bytes} (h : packBe16u l = .ok b) : b.length = l.length * 2 := by
  simpa [Fmt.size] using packAll_length (f := .H) h
theorem len_packLe32u {l : List (Option Int)} {b : Bytes} (h : packLe32u l = .ok b) : b.length = l.length * 4 := by
  simpa [Fmt.size] using packAll_length (f := .I) h
theorem len_packLe32s {l : List (Option Int)} {b : Bytes} (h : packLe32s l = .ok b) : b.length = l.length * 4 := by
  simpa [Fmt.size] using packAll_length (f := .i) h
theorem len_packBe32u {l : List (Option Int)} {b : Bytes} (h : packBe32u l = .ok b) : b.length = l.length * 4 := by
  simpa [Fmt.size] using packAll_length (f := .I) h
theorem len_packLe64u {l : List (Option Int)} {b : Bytes} (h : packLe64u l = .ok b) : b.length = l.length * 8 := by
  simpa [Fmt.size] using packAll_length (f := .Q) h
theorem len_packLe64s {l : List (Option Int)} {b : Bytes} (h : packLe64s l = .ok b) : b.length = l.length * 8 := by
  simpa [Fmt.size] using packAll_length (f := .q) h
theorem len_packBitsLe16u {base} {fs} {b : Bytes} (h : packBitsLe16u base fs = .ok b) : b.length = 2 := by
  unfold packBitsLe16u at h
  split at h
  · exact len_packLe16u h
  · cases h
theorem len_packBitsBe16u {base} {fs} {b : Bytes} (h : packBitsBe16u base fs = .ok b) : b.length = 2 := by
  unfold packBitsBe16u at h
  split at h
  · exact len_packBe16u h
  · cases h

/-! ## 6502 -/

theorem sat_hPackByte (l : List Int) : Sat (hPackByte l) fun o rels => rels = [] ∧ ∀ b, o = some b → b.length = l.length :=
  .bind (.lift (P := fun b l' => l' = [] ∧ b.length = l.length) fun a ha => ⟨rfl, by simpa using len_packByte ha⟩)
    fun a l' h => .pure ⟨by simp [h.1], fun b hb => by cases hb; exact h.2⟩

theorem len_structPack {be : Bool} : ∀ {fs : List Fmt} {vs : List Int} {b : Bytes}, structPack be fs vs = .ok b → b.length = (fs.map Fmt.size).sum
  | [], [], b, h => by cases h; rfl
  | f :: fs, v :: vs, b, h => by
    unfold structPack at h
    split at h
    · split at h
      · next hr =>
        cases h
        have := len_structPack hr
        cases be <;> simp [this]
      · cases h
    · cases h
  | [], _ :: _, _, h => by cases h
  | _ :: _, [], _, h => by cases h

theorem sat_hPack (be : Bool) (fs : List Fmt) (l : List Int) : Sat (hPack be fs l) fun o rels => rels = [] ∧ ∀ b, o = some b → b.length = (fs.map Fmt.size).sum :=
  .bind (.lift (P := fun b l' => l' = [] ∧ b.length = (fs.map Fmt.size).sum) fun a ha => ⟨rfl, len_structPack ha⟩)
    fun a l' h => .pure ⟨by simp [h.1], fun b hb => by cases hb; exact h.2⟩

theorem silent_of {m : H α} {P : α → List Reloc → Prop} (h : Sat m P) (hp : ∀ a l, P a l → l = []) : Silent m := h.mono hp
theorem silent_throw {e : Err} : Silent (H.throw e : H α) := .throw
theorem silent_pure {a : α} : Silent (pure a : H α) := .pure rfl
theorem silent_read : Silent H.read := .read fun _ => rfl
theorem silent_lift {x : Except Err α} : Silent (H.lift x) := .lift fun _ _ => rfl
theorem silent_bind {m : H α} {f : α → H β} (hm : Silent m) (hf : ∀ a, Silent (f a)) : Silent (m >>= f) := .skip hm hf

theorem lineOk_hPackByte (l : List Int) : LineOk (hPackByte l) := lineOk_silent (silent_of (sat_hPackByte l) fun _ _ h => h.1)
theorem lineOk_hPack (be) (fs) (l : List Int) : LineOk (hPack be fs l) := lineOk_silent (silent_of (sat_hPack be fs l) fun _ _ h => h.1)

theorem lineOk_branch6502 (code : Nat) (tokens : List Str) : LineOk (m6502Branch code tokens) := by
  unfold m6502Branch
  split
  · exact .throw
  · refine lineOk_skip silent_read fun c => ?_
    refine lineOk_const 2 (G := fun r => FitsIn Plain r 2) (.orLabel (fun _ _ h => by cases h) fun r hr => ?_) (fun _ h => h) fun a => sat_hPack _ _ _
    cases List.mem_singleton.1 hr
    exact ⟨Nat.le_refl 2, .simple (by simp) (by simp) rfl rfl (fun _ _ h => by cases h)⟩

theorem lineOk_reloc6502 (op : Int) (t : Str) : LineOk (do
    H.reloc { label := t, size := 2, bitsSize := 16, offset := 1 }
    hPack false [.B, .H] [op, 0]) := by
  refine lineOk_const 3 (G := fun r => FitsIn Plain r 3) (.reloc fun r hr => ?_) (fun _ h => h) fun a => sat_hPack _ _ _
  cases List.mem_singleton.1 hr
  exact ⟨Nat.le_refl 3, .simple (by simp) (by simp) rfl rfl (fun _ _ h => by cases h)⟩

theorem lineOk_address6502 (a z : Option Nat) (t : Str) : LineOk (m6502Address a z t) := by
  unfold m6502Address
  refine lineOk_skip (.parseInteger fun _ => rfl) fun x => ?_
  split
  · split
    · exact lineOk_hPackByte _
    · split
      · exact .throw
      · exact lineOk_hPack _ _ _
  · refine lineOk_skip (.labelAddress fun _ => rfl) fun y => ?_
    split
    · split
      · exact .throw
      · exact lineOk_reloc6502 _ _
    · split
      · exact lineOk_hPackByte _
      · split
        · exact .throw
        · exact lineOk_reloc6502 _ _

theorem silent_needMode (m : List (Mode × Nat)) (x : Mode) : Silent (needMode m x) := by
  unfold needMode
  split
  · exact silent_pure
  · exact silent_throw

theorem lineOk_mode6502 (m : List (Mode × Nat)) (tokens : List Str) : LineOk (m6502Mode m tokens) := by
  unfold m6502Mode
  dsimp only
  split
  · exact lineOk_skip (silent_needMode _ _) fun _ => lineOk_hPackByte _
  split
  · refine lineOk_skip (silent_needMode _ _) fun op => ?_
    refine lineOk_const 2 (G := fun r => FitsIn Plain r 2) (.orLabel (fun _ _ h => by cases h) fun r hr => ?_) (fun _ h => h) fun a => sat_hPackByte _
    cases List.mem_singleton.1 hr
    exact ⟨Nat.le_refl 2, .simple (by simp) (by simp) rfl rfl (fun _ _ h => by cases h)⟩
  split
  · exact lineOk_address6502 _ _ _
  split
  · exact lineOk_address6502 _ _ _
  split
  · exact lineOk_address6502 _ _ _
  split
  · exact lineOk_skip (silent_needMode _ _) fun _ => lineOk_address6502 _ _ _
  split
  · exact lineOk_skip (silent_needMode _ _) fun _ => lineOk_address6502 _ _ _
  split
  · exact lineOk_skip (silent_needMode _ _) fun _ => lineOk_address6502 _ _ _
  · exact .throw

/-- Every instruction of the processor. -/
def TidyLines (d : Dialect) : Prop := ∀ key f tokens, d.instrs key = some (.handler f) → LineOk (f tokens)

theorem dget_mem {α β : Type} [DecidableEq α] {l : List (α × β)} {k : α} {v : β} (h : dget l k = some v) : (k, v) ∈ l := by
  induction l with
  | nil => cases h
  | cons x l ih =>
    obtain ⟨a, b⟩ := x
    simp only [dget] at h
    split at h
    · next hk => cases h; rw [hk]; exact List.mem_cons_self ..
    · exact List.mem_cons_of_mem _ (ih h)

theorem tidy_mos6502 : TidyLines mos6502 := by
  intro key f tokens h
  have := dget_mem (l := m6502Table) h
  simp only [m6502Table, List.mem_append, List.mem_map] at this
  rcases this with (⟨p, -, hp⟩ | ⟨p, -, hp⟩) | ⟨p, -, hp⟩ <;> cases hp
  · exact lineOk_branch6502 _ _
  · exact lineOk_mode6502 _ _

/-! ## MIPS -/

theorem silent_mipsReg (t : Str) : Silent (mipsReg t) := by
  unfold mipsReg
  split
  · exact silent_pure
  · split
    · exact silent_pure
    · exact silent_throw

/-- A word: 4 bytes. -/
def Word (r : Reloc) : Prop := FitsIn Plain r 4

theorem sat_mipsWord (be : Bool) (fs : List BitField) : Sat (mipsWord be fs) fun o l => l = [] ∧ ∀ b, o = some b → b.length = 4 := by
  refine .skip silent_lift fun v => ?_
  refine .bind (.lift (P := fun b l => l = [] ∧ b.length = 4) fun a ha => ⟨rfl, ?_⟩) fun a l h => .pure ⟨by simp [h.1], fun b hb => by cases hb; exact h.2⟩
  split at ha
  · exact len_packBe32u ha
  · exact len_packLe32u ha

theorem lineOk_mipsWord (be : Bool) (fs : List BitField) : LineOk (mipsWord be fs) := lineOk_silent (silent_of (sat_mipsWord be fs) fun _ _ h => h.1)

theorem word_mips {m : H Int} (hm : Sat m fun _ l => ∀ r ∈ l, Word r) {f : Int → H (Option Bytes)}
    (hf : ∀ v, Sat (f v) fun o l => l = [] ∧ ∀ b, o = some b → b.length = 4) : LineOk (m >>= f) :=
  lineOk_const 4 hm (fun _ h => h) hf

theorem sat_one {G : Reloc → Prop} {r : Reloc} {s : Bool} (h : G r) : Sat (H.parseIntegerOrLabel r s) fun _ l => ∀ r ∈ l, G r :=
  .orLabel (fun _ _ h => by cases h) fun x hx => by cases List.mem_singleton.1 hx; exact h

theorem word_mk {r : Reloc} (h : r.offset + r.size ≤ 4) (hp : Plain r) : Word r := ⟨h, hp⟩

theorem words_imm16 (s : Bool) (t : Str) : Sat (mipsImm16 s t) fun _ l => ∀ r ∈ l, Word r :=
  sat_one ⟨by simp, .simple (by simp) (by simp) rfl rfl (fun _ _ h => by cases h; omega)⟩
theorem words_shamt (t : Str) : Sat (mipsShamt t) fun _ l => ∀ r ∈ l, Word r :=
  sat_one ⟨by simp, .simple (by simp) (by simp) rfl rfl (fun _ _ h => by cases h; omega)⟩
theorem sat_then {m : H α} {f : α → β} {P : List Reloc → Prop} (h : Sat m fun _ l => P l) : Sat (m >>= fun v => pure (f v)) fun _ l => P l :=
  h.bind fun _ l hl => .pure (by simpa using hl)
theorem words_rel (t : Str) : Sat (mipsRel t) fun _ l => ∀ r ∈ l, Word r :=
  .skip silent_read fun c => sat_then (P := fun l => ∀ r ∈ l, Word r) (sat_one ⟨by simp, ⟨by simp, by simp, rfl, by simp, by unfold converted; rfl, fun _ _ h => by cases h; omega⟩⟩)
theorem words_abs (t : Str) : Sat (mipsAbs t) fun _ l => ∀ r ∈ l, Word r :=
  sat_then (P := fun l => ∀ r ∈ l, Word r) (sat_one ⟨by simp, ⟨by simp, by simp, rfl, by simp, by simp only [converted]; decide, fun _ _ h => by cases h; omega⟩⟩)
theorem words_half (high : Bool) (t : Str) : Sat (mipsHalf high t) fun _ l => ∀ r ∈ l, Word r := by
  unfold mipsHalf
  split
  · exact sat_then (P := fun l => ∀ r ∈ l, Word r) (sat_one ⟨by simp, ⟨by simp, by simp, rfl, by simp, by simp only [converted]; decide, fun _ _ h => by cases h; omega⟩⟩)
  · exact sat_then (P := fun l => ∀ r ∈ l, Word r) (sat_one ⟨by simp, ⟨by simp, by simp, rfl, by simp, by simp only [converted]; decide, fun _ _ h => by cases h; omega⟩⟩)

theorem silent_mipsOffset (t : Str) : Silent (mipsOffset t) := by
  refine .skip (.parseInteger fun _ => rfl) fun x => ?_
  split
  · exact silent_throw
  · exact silent_pure

theorem lineOk_mips (be : Bool) (form : MipsForm) (n : Nat) (tokens : List Str) : LineOk (mipsRun be form n tokens) := by
  cases form <;> (unfold mipsRun; dsimp only)
  case swapped => exact .throw
  case arithLog =>
    split
    · exact lineOk_skip (silent_mipsReg _) fun _ => lineOk_skip (silent_mipsReg _) fun _ => lineOk_skip (silent_mipsReg _) fun _ => lineOk_mipsWord _ _
    · exact lineOk_none
  case arithLogI s =>
    split
    · exact lineOk_skip (silent_mipsReg _) fun _ => lineOk_skip (silent_mipsReg _) fun _ => word_mips (words_imm16 _ _) fun _ => sat_mipsWord _ _
    · exact lineOk_none
  case shift =>
    split
    · exact lineOk_skip (silent_mipsReg _) fun _ => lineOk_skip (silent_mipsReg _) fun _ => word_mips (words_shamt _) fun _ => sat_mipsWord _ _
    · exact lineOk_none
  case shiftV =>
    split
    · exact lineOk_skip (silent_mipsReg _) fun _ => lineOk_skip (silent_mipsReg _) fun _ => lineOk_skip (silent_mipsReg _) fun _ => lineOk_mipsWord _ _
    · exact lineOk_none
  case loadI h =>
    split
    · exact lineOk_skip (silent_mipsReg _) fun _ => word_mips (words_half _ _) fun _ => sat_mipsWord _ _
    · exact lineOk_none
  case branch =>
    split
    · exact lineOk_skip (silent_mipsReg _) fun _ => lineOk_skip (silent_mipsReg _) fun _ => word_mips (words_rel _) fun _ => sat_mipsWord _ _
    · exact lineOk_none
  case branchZ =>
    split
    · exact lineOk_skip (silent_mipsReg _) fun _ => word_mips (words_rel _) fun _ => sat_mipsWord _ _
    · exact lineOk_none
  case jump =>
    split
    · exact word_mips (words_abs _) fun _ => sat_mipsWord _ _
    · exact lineOk_none
  case jumpR =>
    split
    · exact lineOk_skip (silent_mipsReg _) fun _ => lineOk_mipsWord _ _
    · exact lineOk_none
  case loadStore =>
    split
    · exact lineOk_skip (silent_mipsReg _) fun _ => lineOk_skip (silent_mipsOffset _) fun _ => lineOk_skip (silent_mipsReg _) fun _ => lineOk_mipsWord _ _
    · exact lineOk_none
  case moveFrom =>
    split
    · exact lineOk_skip (silent_mipsReg _) fun _ => lineOk_mipsWord _ _
    · exact lineOk_none
  case moveTo =>
    split
    · exact lineOk_skip (silent_mipsReg _) fun _ => lineOk_mipsWord _ _
    · exact lineOk_none
  case noArgs =>
    split
    · exact lineOk_mipsWord _ _
    · exact lineOk_none

theorem tidy_mips (be : Bool) : TidyLines (mipsOn be) := by
  intro key f tokens h
  simp only [mipsOn, Option.map_eq_some_iff] at h
  obtain ⟨p, -, hp⟩ := h
  cases hp
  exact lineOk_mips _ _ _ _

/-! ## LR35902 -/

theorem plain_of {r : Reloc} (h1 : 1 ≤ r.bitsSize) (h2 : r.alignment ≠ 0) (h3 : r.hook = none) (h4 : r.filter = none) (h5 : r.bits = none)
    (h6 : 1 ≤ r.size := by simp) : Plain r :=
  .simple h1 h2 h3 h4 (fun _ _ h => by rw [h5] at h; cases h) h6

/-- A value of `k` bytes with the reference to it, if any, `n` bytes into the line. -/
theorem bytesOk_value {n k : Nat} {r : Reloc} {s : Bool} {enc : Int → Except Err Bytes} (hr : FitsIn Plain r (n + k)) (he : ∀ v b, enc v = .ok b → b.length = k) :
    Sat (H.parseIntegerOrLabel r s >>= fun v => H.lift (enc v)) fun b l => b.length = k ∧ ∀ r ∈ l, FitsIn Plain r (n + k) :=
  .bind (P := fun _ l => ∀ r ∈ l, FitsIn Plain r (n + k)) (sat_one hr) fun a l hl =>
    .lift fun b hb => ⟨he _ _ hb, by simpa using hl⟩

/-- A value of 1 or 2 bytes and the reference to it. -/
def GbValue (m : H Bytes) : Prop := Sat m fun b l => ∀ r ∈ l, FitsIn Plain r (1 + b.length)

theorem gbValue_of {k : Nat} {m : H Bytes} (h : Sat m fun b l => b.length = k ∧ ∀ r ∈ l, FitsIn Plain r (1 + k)) : GbValue m :=
  h.mono fun b l hb => by rw [hb.1]; exact hb.2

theorem gbValue_data8 (t : Str) : GbValue (gbData8 t) :=
  gbValue_of (k := 1) (bytesOk_value ⟨by simp, plain_of (by simp) (by simp) rfl rfl rfl⟩ fun _ _ h => len_packByte h)
theorem gbValue_data16 (t : Str) : GbValue (gbData16 t) :=
  gbValue_of (k := 2) (bytesOk_value ⟨by simp, plain_of (by simp) (by simp) rfl rfl rfl⟩ fun _ _ h => len_packLe16u h)
theorem gbValue_rel8 (t : Str) : GbValue (gbRel8 t) :=
  .skip silent_read fun _ => gbValue_of (k := 1) (bytesOk_value ⟨by simp, plain_of (by simp) (by simp) rfl rfl rfl⟩ fun _ _ h => len_pack8s h)

theorem sat_gbByte (kw) (key : Str) : Sat (gbByte kw key) fun b l => l = [] ∧ b.length = 1 := by
  unfold gbByte
  split
  · exact .throw
  · exact .lift fun a h => ⟨rfl, len_packByte h⟩

theorem gb_then {m : H Bytes} (hm : GbValue m) {f : Bytes → H (Option Bytes)} (hf : ∀ v, Sat (f v) fun o l => l = [] ∧ ∀ b, o = some b → b.length = 1 + v.length) :
    LineOk (m >>= f) := by
  refine hm.bind fun a l hl => (hf a).mono fun o l' ho b hb r hr => ?_
  obtain ⟨rfl, hn⟩ := ho
  rw [List.append_nil] at hr
  rw [hn b hb]
  exact hl r hr

theorem sat_gbByteThen (kw) (key : Str) (v : Bytes) : Sat (gbByteThen kw key v) fun o l => l = [] ∧ ∀ b, o = some b → b.length = 1 + v.length :=
  (sat_gbByte kw key).bind fun a l h => .pure ⟨by simp [h.1], fun b hb => by cases hb; simp [h.2]⟩
theorem lineOk_gbOnly (kw) (key : Str) : LineOk (gbOnly kw key) :=
  lineOk_skip (silent_of (sat_gbByte kw key) fun _ _ h => h.1) fun _ => lineOk_silent silent_pure
theorem sat_gbConst (x : Int) (v : Bytes) : Sat (do let b ← H.lift (packByte [some x]); pure (some (b ++ v)) : H (Option Bytes)) fun o l => l = [] ∧ ∀ b, o = some b → b.length = 1 + v.length :=
  .bind (.lift (P := fun b l => l = [] ∧ b.length = 1) fun a ha => ⟨rfl, len_packByte ha⟩) fun a l h => .pure ⟨by simp [h.1], fun b hb => by cases hb; simp [h.2]⟩

theorem gb8 (t : Str) (kw) (key : Str) : LineOk (gbData8 t >>= fun v => gbByteThen kw key v) := gb_then (gbValue_data8 t) fun v => sat_gbByteThen kw key v
theorem gb16 (t : Str) (kw) (key : Str) : LineOk (gbData16 t >>= fun v => gbByteThen kw key v) := gb_then (gbValue_data16 t) fun v => sat_gbByteThen kw key v
theorem gbR (t : Str) (kw) (key : Str) : LineOk (gbRel8 t >>= fun v => gbByteThen kw key v) := gb_then (gbValue_rel8 t) fun v => sat_gbByteThen kw key v

theorem lineOk_ite {p : Prop} [Decidable p] {a b : H (Option Bytes)} (ha : LineOk a) (hb : LineOk b) : LineOk (if p then a else b) := by
  split
  · exact ha
  · exact hb

theorem lineOk_gbBuild (c r : Bool) (kw) (tokens : List Str) : LineOk (gbBuild c r kw tokens) := by
  unfold gbBuild
  dsimp only
  repeat' with_reducible refine lineOk_ite ?_ ?_
  all_goals with_reducible first
    | exact lineOk_gbOnly _ _
    | exact gb8 _ _ _
    | exact gb16 _ _ _
    | exact gbR _ _ _
    | exact lineOk_none

theorem lineOk_gbPrefixed (kw) (key : Str) : LineOk (gbPrefixed kw key) := by
  unfold gbPrefixed
  split
  · exact .throw
  · exact lineOk_hPackByte _

theorem lineOk_gbCb (kw) (tokens : List Str) : LineOk (gbCb kw tokens) := by
  unfold gbCb
  dsimp only
  repeat' split
  all_goals with_reducible first
    | exact lineOk_gbPrefixed _ _
    | exact lineOk_none

theorem lineOk_gbLdh (tokens : List Str) : LineOk (gbLdh tokens) := by
  unfold gbLdh
  dsimp only
  split
  · exact gb_then (gbValue_data8 _) fun v => sat_gbConst _ v
  split
  · exact gb_then (gbValue_data8 _) fun v => sat_gbConst _ v
  · exact lineOk_none

theorem lineOk_gbMethod (row : GbRow) (tokens : List Str) : LineOk (gbMethod row tokens) := by
  unfold gbMethod
  split
  · unfold gbLd
    dsimp only
    split
    · exact gb_then (gbValue_rel8 _) fun v => sat_gbConst _ v
    split
    · exact gb_then (gbValue_rel8 _) fun v => sat_gbConst _ v
    · exact lineOk_gbBuild _ _ _ _
  split
  · unfold gbRet
    split
    · exact lineOk_silent silent_pure
    · exact lineOk_gbBuild _ _ _ _
  · exact lineOk_gbBuild _ _ _ _

theorem tidy_lr35902 : TidyLines lr35902 := by
  intro key f tokens h
  change gbInstr key = _ at h
  unfold gbInstr at h
  split at h
  · cases h
  split at h
  · cases h; exact lineOk_gbMethod _ _
  split at h
  · cases h; exact lineOk_gbCb _ _
  split at h
  · cases h; exact lineOk_gbLdh _
  split at h
  · cases h
    unfold gbStop
    split
    · exact lineOk_hPackByte _
    · exact lineOk_none
  split at h
  · cases h
    unfold gbRst
    split
    · split
      · exact .throw
      · exact lineOk_hPackByte _
    · exact lineOk_none
  · cases h

/-! ## Thumb -/

def Half (r : Reloc) : Prop := FitsIn Plain r 2
def Halves (m : H α) : Prop := Sat m fun _ l => ∀ r ∈ l, Half r

theorem halves_silent {m : H α} (h : Silent m) : Halves m := h.mono fun _ _ e r hr => by subst e; cases hr

theorem silent_thLow (t : Str) : Silent (thLowReg t) := by
  unfold thLowReg; split
  · exact silent_throw
  · split
    · exact silent_pure
    · exact silent_throw
theorem silent_thHigh (t : Str) : Silent (thHighReg t) := by
  unfold thHighReg; split
  · exact silent_pure
  · split
    · exact silent_throw
    · split
      · exact silent_pure
      · exact silent_throw
theorem silent_thImm (t : Str) : Silent (thImm t) := by
  refine .skip (.parseInteger fun _ => rfl) fun x => ?_
  split
  · exact silent_throw
  · exact silent_pure

theorem halves_conv {o : ThOp} {f : Str → H Int} (h : o.conv = some f) (t : Str) : Halves (f t) := by
  cases o <;> simp only [ThOp.conv] at h <;> cases h
  · exact halves_silent (silent_thLow t)
  · exact halves_silent (silent_thHigh t)
  · exact halves_silent (silent_thImm t)
  · exact .skip silent_read fun c => sat_one ⟨by simp, ⟨by simp, by simp, rfl, by simp, by simp only [converted]; decide, fun _ _ h => by cases h; omega⟩⟩
  · dsimp only
    split
    · exact halves_silent silent_pure
    · exact halves_silent silent_throw
  · exact .skip silent_read fun c => sat_one ⟨by simp, ⟨by simp, by simp, rfl, by simp, by simp only [converted]; decide, fun _ _ h => by cases h; omega⟩⟩

theorem halves_bind {m : H α} {f : α → H β} (hm : Halves m) (hf : ∀ a, Halves (f a)) : Halves (m >>= f) :=
  hm.bind fun a l hl => (hf a).mono fun b l' hl' r hr => by
    rcases List.mem_append.1 hr with hr | hr
    · exact hl r hr
    · exact hl' r hr

theorem halves_apply : ∀ (os : List ThOp) (ts : List Str), Halves (thApply os ts)
  | [], _ => halves_silent silent_pure
  | _ :: _, [] => halves_silent silent_pure
  | o :: os, t :: ts => by
    unfold thApply
    split
    · exact halves_apply os ts
    · next f h => exact halves_bind (halves_conv h t) fun v => halves_bind (halves_apply os ts) fun _ => halves_silent silent_pure

theorem lineOk_thForm (f : ThForm) (tokens : List Str) : LineOk (f.build tokens) := by
  unfold ThForm.build
  refine lineOk_const 2 (halves_apply _ _) (fun _ h => h) fun vs => ?_
  split
  · exact .throw
  · exact .bind (.lift (P := fun b l => l = [] ∧ b.length = 2) fun a ha => ⟨rfl, len_packBitsLe16u ha⟩) fun a l h => .pure ⟨by simp [h.1], fun b hb => by cases hb; simp [h.2]⟩

theorem lineOk_thRun : ∀ (fs : List ThForm) (tokens : List Str), LineOk (thRun fs tokens)
  | [], _ => lineOk_none
  | f :: fs, tokens => by
    unfold thRun
    split
    · exact lineOk_thForm f tokens
    · exact lineOk_thRun fs tokens

theorem lineOk_thPush (tokens : List Str) : LineOk (thPush tokens) := by
  unfold thPush
  split
  · exact lineOk_none
  split
  · exact lineOk_none
  · exact lineOk_silent (silent_bind silent_lift fun _ => silent_bind silent_lift fun _ => silent_pure)

theorem plain_blHigh (t : Str) (pc : Int) : Plain (thBlHigh t pc) :=
  ⟨by simp [thBlHigh], by simp [thBlHigh], rfl, by simp [thBlHigh], by simp only [converted, thBlHigh]; decide, fun _ _ h => by cases h; omega⟩
theorem plain_blLow (t : Str) (pc : Int) : Plain (thBlLow t pc) :=
  ⟨by simp [thBlLow], by simp [thBlLow], rfl, by simp [thBlLow], by simp only [converted, thBlLow]; decide, fun _ _ h => by cases h; omega⟩

theorem lineOk_thBl (tokens : List Str) : LineOk (thBl tokens) := by
  unfold thBl
  split
  · refine lineOk_skip (.parseInteger fun _ => rfl) fun x => ?_
    dsimp only
    split
    · exact lineOk_silent (silent_bind silent_lift fun _ => silent_bind silent_lift fun _ => silent_pure)
    · refine lineOk_skip silent_read fun c => ?_
      refine .bind (.reloc (P := fun _ l => l = [thBlHigh (tokens.getD 1 []) c.pc]) rfl) fun _ l hl => ?_
      refine .bind (.reloc (P := fun _ l => l = [thBlLow (tokens.getD 1 []) c.pc]) rfl) fun _ l' hl' => ?_
      refine .bind (.lift (P := fun b l => l = [] ∧ b.length = 4) fun a ha => ⟨rfl, len_packLe16u ha⟩) fun b l2 h2 => .pure ?_
      subst hl; subst hl'
      intro b' hb' r hr
      cases hb'
      rw [h2.1] at hr
      rw [h2.2]
      simp at hr
      rcases hr with rfl | rfl
      · exact ⟨by simp [thBlHigh], plain_blHigh ..⟩
      · exact ⟨by simp [thBlLow], plain_blLow ..⟩
  · exact lineOk_none

theorem tidy_thumb : TidyLines thumb := by
  intro key f tokens h
  simp only [thumb] at h
  split at h
  · cases h; exact lineOk_thBl _
  split at h
  · cases h; exact lineOk_thPush _
  · rw [Option.map_eq_some_iff] at h
    obtain ⟨p, -, hp⟩ := h
    cases hp
    exact lineOk_thRun _ _

/-! ## PowerPC -/

def Words (m : H α) : Prop := Sat m fun _ l => ∀ r ∈ l, Word r
theorem words_silent {m : H α} (h : Silent m) : Words m := h.mono fun _ _ e r hr => by subst e; cases hr
theorem words_bind {m : H α} {f : α → H β} (hm : Words m) (hf : ∀ a, Words (f a)) : Words (m >>= f) :=
  hm.bind fun a l hl => (hf a).mono fun b l' hl' r hr => by
    rcases List.mem_append.1 hr with hr | hr
    · exact hl r hr
    · exact hl' r hr

theorem silent_ppcReg (names : List Str) (t : Str) : Silent (ppcReg names t) := by
  unfold ppcReg; split
  · exact silent_pure
  · exact silent_throw

theorem words_ppc (k : PpcKind) (hi lo : Nat) (hb : lo ≤ hi) (t : Str) : Words (k.value hi lo t) := by
  have hf : ∀ (r : Reloc), r.bits = some (hi, lo) → ∀ a b, r.bits = some (a, b) → b ≤ a := fun r hr a b h => by rw [hr] at h; cases h; exact hb
  have hn : ∀ s, Words (H.parseIntegerOrLabel { label := t, size := 4, bitsSize := hi - lo + 1, bits := some (hi, lo) } s) := fun s =>
    sat_one ⟨by simp, .simple (by simp) (by simp) rfl rfl (hf _ rfl)⟩
  cases k <;> (unfold PpcKind.value; dsimp only)
  case greg => exact words_silent (silent_ppcReg _ _)
  case g0reg =>
    split
    · exact words_silent silent_pure
    · exact words_silent (silent_ppcReg _ _)
  case freg => exact words_silent (silent_ppcReg _ _)
  case pcrel => exact .skip silent_read fun c => sat_one ⟨by simp, ⟨by simp, by simp, rfl, by simp, by simp only [converted]; decide, hf _ rfl⟩⟩
  case baddr => exact sat_one ⟨by simp, ⟨by simp, by simp, rfl, by simp, by simp only [converted]; decide, hf _ rfl⟩⟩
  case unset => exact words_silent silent_throw
  all_goals exact hn _

theorem words_ppcFields (tokens : List Str) : ∀ (items : List PpcItem) (i : Nat), (∀ x ∈ items, 1 ≤ x.2.1 ∨ x.2.2 = .unset) → Words (ppcFields tokens items i)
  | [], _, _ => words_silent silent_pure
  | (lo, width, k) :: items, i, h => by
    unfold ppcFields
    refine words_bind ?_ fun v => words_bind (words_ppcFields tokens items (i + 1) fun x hx => h x (List.mem_cons_of_mem _ hx)) fun _ => words_silent silent_pure
    rcases h _ (List.mem_cons_self ..) with h | h
    · exact words_ppc k _ _ (by simp only at h; omega) _
    · simp only at h
      subst h
      exact words_silent silent_throw

theorem lineOk_ppc (base : Nat) (tokens : List Str) : ∀ (conds : List (Option (List PpcItem))),
    (∀ c ∈ conds, ∀ items, c = some items → ∀ x ∈ items, 1 ≤ x.2.1 ∨ x.2.2 = .unset) → LineOk (ppcCall base tokens conds)
  | [], _ => lineOk_none
  | none :: conds, h => by
    unfold ppcCall
    split
    · exact lineOk_silent (silent_bind silent_lift fun _ => silent_pure)
    · exact lineOk_ppc base tokens conds fun c hc => h c (List.mem_cons_of_mem _ hc)
  | some items :: conds, h => by
    unfold ppcCall
    split
    · refine lineOk_const 4 (words_ppcFields tokens items 0 (h _ (List.mem_cons_self ..) items rfl)) (fun _ h => h) fun fs => ?_
      refine .skip silent_lift fun v => ?_
      exact .bind (.lift (P := fun b l => l = [] ∧ b.length = 4) fun a ha => ⟨rfl, len_packBe32u ha⟩) fun a l h => .pure ⟨by simp [h.1], fun b hb => by cases hb; simp [h.2]⟩
    · exact lineOk_ppc base tokens conds fun c hc => h c (List.mem_cons_of_mem _ hc)

theorem ppc_widths : (ppcTable.all fun g => g.2.all fun row => match row.2 with
    | none => true
    | some items => items.all fun x => decide (1 ≤ x.2.1) || decide (x.2.2 = .unset)) = true := by decide +kernel

theorem tidy_ppc : TidyLines ppc := by
  intro key f tokens h
  simp only [ppc] at h
  split at h
  · next base cond rows hg =>
    cases h
    have hm := List.mem_of_find?_eq_some hg
    have hw := List.all_eq_true.1 ppc_widths _ hm
    refine lineOk_ppc base tokens _ fun c hc items hi x hx => ?_
    have : ∃ row ∈ (base, cond) :: rows, row.2 = c := by
      rcases List.mem_cons.1 hc with rfl | hc
      · exact ⟨_, List.mem_cons_self .., rfl⟩
      · obtain ⟨row, hr, e⟩ := List.mem_map.1 hc
        exact ⟨row, List.mem_cons_of_mem _ hr, e⟩
    obtain ⟨row, hr, e⟩ := this
    have := List.all_eq_true.1 hw row hr
    rw [e, hi] at this
    simpa using List.all_eq_true.1 this x hx
  · cases h

/-! ## Z80 -/

theorem sat_z80Build (h : Z80Hook) (base : Bytes) (v : Str) : Sat (z80Build h base v) fun b l => ∀ r ∈ l, FitsIn Plain r (base.length + b.length) := by
  have hv : ∀ {k : Nat} {r : Reloc} {s : Bool} {enc : Int → Except Err Bytes}, FitsIn Plain r (base.length + k) → (∀ v b, enc v = .ok b → b.length = k) →
      Sat (H.parseIntegerOrLabel r s >>= fun v => H.lift (enc v)) fun b l => ∀ r ∈ l, FitsIn Plain r (base.length + b.length) :=
    fun h1 h2 => (bytesOk_value h1 h2).mono fun b l hb => by rw [hb.1]; exact hb.2
  unfold z80Build
  split
  · exact hv (k := 2) ⟨by simp, plain_of (by simp) (by simp) rfl rfl rfl⟩ fun _ _ h => len_packLe16u h
  · exact hv (k := 1) ⟨by simp, plain_of (by simp) (by simp) rfl rfl rfl⟩ fun _ _ h => len_packByte h
  · exact .skip silent_read fun c => hv (k := 1) ⟨by simp, plain_of (by simp) (by simp) rfl rfl rfl⟩ fun _ _ h => len_pack8s h
  · exact hv (k := 1) ⟨by simp, plain_of (by simp) (by simp) rfl rfl rfl⟩ fun _ _ h => len_pack8s h
  · split
    · exact hv (k := 1) ⟨by simp, plain_of (by simp) (by simp) rfl rfl rfl⟩ fun _ _ h => len_pack8s h
    · exact hv (k := 1) ⟨by simp, plain_of (by simp) (by simp) rfl rfl rfl⟩ fun _ _ h => len_pack8s h
    · exact .throw

theorem len_z80Suffix {ss : List Nat} : ∀ {base b : Bytes}, z80Suffix ss base = .ok b → base.length ≤ b.length := by
  induction ss with
  | nil => intro base b h; cases h; exact Nat.le_refl _
  | cons s ss ih =>
    intro base b h
    unfold z80Suffix at h
    cases hp : packByte [some (s : Int)] with
    | error e => rw [hp] at h; cases h
    | ok x =>
      rw [hp] at h
      have := ih h
      simp only [List.length_append] at this
      omega

theorem sat_z80Emit (tokens : List Str) (codes : List Nat) (args : List String) :
    Sat (z80Emit tokens codes args) fun b l => ∀ r ∈ l, FitsIn Plain r b.length := by
  unfold z80Emit
  refine .skip silent_lift fun base => ?_
  dsimp only
  split
  · refine (sat_z80Build _ base _).bind fun b l hl => .bind (P := fun b' l' => b' = base ++ b ∧ l' = []) (.pure ⟨rfl, rfl⟩) fun b' l' hb => .lift fun b'' hb'' r hr => ?_
    obtain ⟨rfl, rfl⟩ := hb
    have h2 := len_z80Suffix hb''
    have h1 := hl r (by simpa using hr)
    rw [List.length_append] at h2
    exact ⟨by have := h1.1; omega, h1.2⟩
  · exact .skip silent_pure fun _ => .lift fun _ _ r hr => by cases hr

theorem lineOk_z80 (tokens : List Str) : ∀ vs, LineOk (z80Call tokens vs)
  | [] => lineOk_none
  | (codes, args) :: vs => by
    unfold z80Call
    split
    · exact (sat_z80Emit tokens codes args).bind fun b l hl => .pure fun b' hb' => by cases hb'; simpa using hl
    · exact lineOk_z80 tokens vs

theorem tidy_z80 : TidyLines z80 := by
  intro key f tokens h
  simp only [z80] at h
  split at h
  · cases h
  · cases h; exact lineOk_z80 _ _

/-! ## 68000 -/

theorem sat_m68Packer (t : Str) (k offset : Nat) : Sat (m68Packer t k offset) fun b l => b.length = k + k % 2 ∧ ∀ r ∈ l, FitsIn Plain r (2 + offset + b.length) := by
  unfold m68Packer
  have hk : k = 1 ∨ k = 2 ∨ k = 4 ∨ ¬ (k = 1 ∨ k = 2) ∧ k ≠ 4 := by omega
  have hv : 1 ≤ k → ∀ f : Int → H Bytes, (∀ v, Sat (f v) fun b l => l = [] ∧ b.length = k + k % 2) →
      Sat (H.parseIntegerOrLabel { label := t, size := k + k % 2, bitsSize := k * 8, offset := 2 + offset } >>= f) fun b l =>
        b.length = k + k % 2 ∧ ∀ r ∈ l, FitsIn Plain r (2 + offset + b.length) := fun h1 f hf =>
    .bind (P := fun _ l => ∀ r ∈ l, FitsIn Plain r (2 + offset + (k + k % 2))) (sat_one ⟨by simp, plain_of (by simp; omega) (by simp) rfl rfl rfl (by simp; omega)⟩)
      fun a l hl => (hf a).mono fun b l' h => by rw [h.1, h.2, List.append_nil]; exact ⟨rfl, hl⟩
  rcases hk with rfl | rfl | rfl | ⟨h1, h2⟩
  · exact hv (by omega) _ fun v => by simp only [true_or, if_true]; exact .lift fun a h => ⟨rfl, len_packBe16u h⟩
  · exact hv (by omega) _ fun v => by simp only [or_true, if_true]; exact .lift fun a h => ⟨rfl, len_packBe16u h⟩
  · exact hv (by omega) _ fun v => by simp; exact .lift fun a h => ⟨rfl, len_packBe32u h⟩
  · refine .bind (P := fun _ _ => True) (.orLabel (fun _ => trivial) trivial) fun v l _ => ?_
    rw [if_neg h1, if_neg h2]
    exact .throw

/-- What an operand adds, with the references to it, `offset` bytes after the first word. -/
def OperandOk (offset : Nat) (m : H M68Operand) : Prop := Sat m fun o l => ∀ r ∈ l, FitsIn Plain r (2 + offset + o.data.length)

theorem operandOk_try {offset} {tokens start black mode ps} {body : Nat → H M68Operand} {next : H M68Operand} (hb : ∀ i, OperandOk offset (body i))
    (hn : OperandOk offset next) : OperandOk offset (m68Try tokens start black mode ps body next) := by
  unfold m68Try
  split
  · split
    · exact hn
    · exact hb _
  · exact hn

theorem operandOk_silent {offset} {m : H M68Operand} (h : Silent m) : OperandOk offset m := h.mono fun _ _ e r hr => by subst e; cases hr

theorem silent_m68Reg (t : Str) : Silent (m68Reg t) := by
  unfold m68Reg; split
  · exact silent_pure
  · exact silent_throw
theorem silent_m68Cond (t : Str) : Silent (m68Cond t) := by
  unfold m68Cond; split
  · exact silent_pure
  · split
    · exact silent_pure
    · exact silent_throw
theorem silent_m68IdxReg (t : Str) : Silent (m68IdxReg t) := by
  unfold m68IdxReg
  dsimp only
  split
  · exact silent_bind (silent_m68Reg _) fun _ => silent_pure
  split
  · exact silent_bind (silent_m68Reg _) fun _ => silent_pure
  · exact silent_bind (silent_m68Reg _) fun _ => silent_pure

theorem operandOk_value {offset k : Nat} {r : Reloc} {s : Bool} {f : Int → H M68Operand} (hr : FitsIn Plain r (2 + offset + k))
    (hf : ∀ v, Sat (f v) fun o l => l = [] ∧ o.data.length = k) : OperandOk offset (H.parseIntegerOrLabel r s >>= f) :=
  .bind (P := fun _ l => ∀ r ∈ l, FitsIn Plain r (2 + offset + k)) (sat_one hr) fun a l hl =>
    (hf a).mono fun o l' h => by rw [h.1, h.2, List.append_nil]; exact hl

theorem sat_ext {x : Except Err Bytes} {k : Nat} (hx : ∀ b, x = .ok b → b.length = k) (i : Nat) (m xn : Int) :
    Sat (H.lift x >>= fun b => pure ⟨i, m, xn, b⟩) fun (o : M68Operand) l => l = [] ∧ o.data.length = k :=
  .bind (.lift (P := fun (b : Bytes) l => l = [] ∧ b.length = k) fun a ha => ⟨rfl, hx a ha⟩) fun a l h => .pure ⟨by simp [h.1], h.2⟩

theorem operandOk_mode (tokens : List Str) (start offset size : Nat) (black : List M68Mode) : OperandOk offset (m68Mode tokens start offset size black) := by
  unfold m68Mode
  dsimp only
  refine operandOk_try (fun i => operandOk_silent (silent_bind (silent_m68Reg _) fun _ => silent_pure)) ?_
  refine operandOk_try (fun i => operandOk_silent (silent_bind (silent_m68Reg _) fun _ => silent_pure)) ?_
  refine operandOk_try (fun i => operandOk_silent (silent_bind (silent_m68Reg _) fun _ => silent_pure)) ?_
  refine operandOk_try (fun i => operandOk_silent (silent_bind (silent_m68Reg _) fun _ => silent_pure)) ?_
  refine operandOk_try (fun i => operandOk_silent (silent_bind (silent_m68Reg _) fun _ => silent_pure)) ?_
  refine operandOk_try (fun i => operandOk_value (k := 2) ⟨by simp, plain_of (by simp) (by simp) rfl rfl rfl⟩ fun v =>
    .skip (silent_m68Reg _) fun _ => sat_ext (fun _ h => len_packBe16u h) _ _ _) ?_
  refine operandOk_try (fun i => operandOk_value (k := 2) ⟨by simp, .simple (by simp) (by simp) rfl rfl (fun _ _ h => by cases h; omega)⟩ fun v =>
    .skip (silent_m68IdxReg _) fun _ => .skip (silent_m68Reg _) fun _ => sat_ext (fun _ h => len_packBitsBe16u h) _ _ _) ?_
  refine operandOk_try (fun i => .skip silent_read fun c => operandOk_value (k := 2) ⟨by simp, plain_of (by simp) (by simp) rfl rfl rfl⟩ fun v =>
    sat_ext (fun _ h => len_packBe16u h) _ _ _) ?_
  refine operandOk_try (fun i => .skip silent_read fun c => operandOk_value (k := 2) ⟨by simp, .simple (by simp) (by simp) rfl rfl (fun _ _ h => by cases h; omega)⟩ fun v =>
    .skip (silent_m68IdxReg _) fun _ => sat_ext (fun _ h => len_packBitsBe16u h) _ _ _) ?_
  refine operandOk_try (fun i => operandOk_value (k := 2) ⟨by simp, plain_of (by simp) (by simp) rfl rfl rfl⟩ fun v =>
    sat_ext (fun _ h => len_packBe16u h) _ _ _) ?_
  refine operandOk_try (fun i => operandOk_value (k := 4) ⟨by simp, plain_of (by simp) (by simp) rfl rfl rfl⟩ fun v =>
    sat_ext (fun _ h => len_packBe32u h) _ _ _) ?_
  refine operandOk_try (fun i => (sat_m68Packer _ size offset).bind fun b l h => .pure (by simpa using h.2)) ?_
  refine operandOk_try (fun i => operandOk_value (k := 2) ⟨by simp, plain_of (by simp) (by simp) rfl rfl rfl⟩ fun v =>
    sat_ext (fun _ h => len_packBe16u h) _ _ _) ?_
  refine operandOk_try (fun i => operandOk_value (k := 4) ⟨by simp, plain_of (by simp) (by simp) rfl rfl rfl⟩ fun v =>
    sat_ext (fun _ h => len_packBe32u h) _ _ _) ?_
  refine operandOk_try (fun i => operandOk_value (k := 4) ⟨by simp, plain_of (by simp) (by simp) rfl rfl rfl⟩ fun v =>
    sat_ext (fun _ h => len_packBe32u h) _ _ _) ?_
  exact .throw

theorem sat_m68Build (base : Int) (fs : List BitField) : Sat (m68Build base fs) fun b l => l = [] ∧ b.length = 2 := .lift fun a h => ⟨rfl, len_packBitsBe16u h⟩

/-- The last step: the first word, then what has been collected. -/
theorem sat_m68Word {l0 : List Reloc} {n : Nat} (h : ∀ r ∈ l0, FitsIn Plain r (2 + n)) (base : Int) (fs : List BitField) {g : Bytes → Bytes} (hg : ∀ b, b.length = 2 → (g b).length = 2 + n) :
    Sat (m68Build base fs >>= fun b => pure (some (g b))) fun o l => ∀ b, o = some b → ∀ r ∈ l0 ++ l, FitsIn Plain r b.length :=
  (sat_m68Build base fs).bind fun b l hb => .pure fun b' hb' r hr => by
    cases hb'
    rw [hb.1, List.append_nil, List.append_nil] at hr
    rw [hg b hb.2]
    exact h r hr

theorem FitsIn.mono {r : Reloc} {n m : Nat} (h : FitsIn Plain r n) (hm : n ≤ m) : FitsIn Plain r m := ⟨Nat.le_trans h.1 hm, h.2⟩

theorem sat_toAddress (tokens : List Str) (s : Nat) (o : M68Operand) {l0 : List Reloc} (h : ∀ r ∈ l0, FitsIn Plain r (2 + o.data.length)) :
    Sat (m68ToAddress tokens s o) fun x l => ∀ b, x = some b → ∀ r ∈ l0 ++ l, FitsIn Plain r b.length :=
  .skip (silent_m68Reg _) fun _ => sat_m68Word h _ _ fun b hb => by simp [hb]

theorem sat_none {P : Bytes → List Reloc → Prop} : Sat (pure none : H (Option Bytes)) fun o l => ∀ b, o = some b → P b l := .pure fun _ h => by cases h

theorem lineOk_m68 (kind : M68Kind) (tokens : List Str) : LineOk (m68Run kind tokens) := by
  cases kind with
  | move =>
    unfold m68Run
    dsimp only
    refine (operandOk_mode tokens 1 0 _ _).bind fun o l hl => ?_
    split
    · exact sat_toAddress tokens _ o hl
    · refine (operandOk_mode tokens _ o.data.length _ _).bind fun o' l' hl' => ?_
      have hall : ∀ r ∈ l ++ l', FitsIn Plain r (2 + (o.data.length + o'.data.length)) := fun r hr => by
        rcases List.mem_append.1 hr with hr | hr
        · exact (hl r hr).mono (by omega)
        · exact (hl' r hr).mono (by omega)
      exact (sat_m68Word hall _ _ fun b hb => by simp only [List.length_append, hb]; omega).mono fun _ _ h => by simpa using h
  | movea =>
    unfold m68Run
    dsimp only
    refine (operandOk_mode tokens 1 0 _ _).bind fun o l hl => ?_
    split
    · exact sat_toAddress tokens _ o hl
    · exact sat_none
  | imm base status =>
    unfold m68Run
    dsimp only
    split
    · exact (sat_m68Packer _ 1 0).bind fun p l h => sat_m68Word (n := p.length) h.2 _ _ fun b hb => by simp [hb]
    split
    · exact (sat_m68Packer _ 2 0).bind fun p l h => sat_m68Word (n := p.length) h.2 _ _ fun b hb => by simp [hb]
    split
    · refine (sat_m68Packer _ _ 0).bind fun p l h => ?_
      refine (operandOk_mode tokens _ _ _ _).bind fun o' l' hl' => ?_
      have hall : ∀ r ∈ l ++ l', FitsIn Plain r (2 + (p.length + o'.data.length)) := fun r hr => by
        rcases List.mem_append.1 hr with hr | hr
        · exact (h.2 r hr).mono (by omega)
        · exact (hl' r hr).mono (by rw [h.1]; omega)
      exact (sat_m68Word hall _ _ fun b hb => by simp only [List.length_append, hb]; omega).mono fun _ _ h => by simpa using h
    · exact lineOk_none
  | jump base =>
    unfold m68Run
    dsimp only
    exact (operandOk_mode tokens 1 0 _ _).bind fun o l hl => sat_m68Word hl _ _ fun b hb => by simp [hb]
  | lea =>
    unfold m68Run
    dsimp only
    refine (operandOk_mode tokens 1 0 _ _).bind fun o l hl => ?_
    split
    · exact .skip (silent_m68Reg _) fun _ => sat_m68Word hl _ _ fun b hb => by simp [hb]
    · exact sat_none
  | bcc =>
    unfold m68Run
    dsimp only
    split
    · refine lineOk_skip (silent_m68Cond _) fun cond => lineOk_skip silent_read fun c => ?_
      split
      · refine lineOk_const 2 (G := Half) (sat_one ⟨by simp, .simple (by simp) (by simp) rfl rfl (fun _ _ h => by cases h; omega)⟩) (fun _ h => h) fun v => ?_
        exact (sat_m68Build _ _).bind fun b l hb => .pure ⟨by simp [hb.1], fun b' hb' => by cases hb'; exact hb.2⟩
      split
      · refine lineOk_const 4 (G := Word) (sat_one ⟨by simp, plain_of (by simp) (by simp) rfl rfl rfl⟩) (fun _ h => h) fun v => ?_
        exact (sat_m68Build _ _).bind fun b l hb => .bind (.lift (P := fun (b : Bytes) l => l = [] ∧ b.length = 2) fun a ha => ⟨rfl, len_packBe16u ha⟩)
          fun e l' he => .pure ⟨by simp [hb.1, he.1], fun b' hb' => by cases hb'; simp [hb.2, he.2]⟩
      · exact lineOk_none
    · exact lineOk_none
  | dbcc =>
    unfold m68Run
    dsimp only
    split
    · refine lineOk_skip (silent_m68Cond _) fun cond => lineOk_skip (silent_m68Reg _) fun _ => lineOk_skip silent_read fun c => ?_
      refine lineOk_const 4 (G := Word) (sat_one ⟨by simp, plain_of (by simp) (by simp) rfl rfl rfl⟩) (fun _ h => h) fun v => ?_
      exact (sat_m68Build _ _).bind fun b l hb => .bind (.lift (P := fun (b : Bytes) l => l = [] ∧ b.length = 2) fun a ha => ⟨rfl, len_packBe16u ha⟩)
        fun e l' he => .pure ⟨by simp [hb.1, he.1], fun b' hb' => by cases hb'; simp [hb.2, he.2]⟩
    · exact lineOk_none

theorem tidy_mc68000 : TidyLines mc68000 := by
  intro key f tokens h
  simp only [mc68000] at h
  split at h
  · cases h
  split at h
  · cases h
  · rw [Option.map_eq_some_iff] at h
    obtain ⟨p, -, hp⟩ := h
    cases hp
    exact lineOk_m68 _ _
