import Verif.Lemmas.M68Accept
/-!
# Instructions the 68000 has
-/

namespace Necro
open Spec

def Spec.M68Ea.Proper : M68Ea → Prop
  | .disp d _ | .pcDisp d => -(2 ^ 15) ≤ d ∧ d < 2 ^ 15
  | .idx d _ _ | .pcIdx d _ => -(2 ^ 7) ≤ d ∧ d < 2 ^ 7
  | _ => True

def Spec.M68Instr.Proper : M68Instr → Prop
  | .move sz s d => s.Proper ∧ d.Proper ∧ d.alterable = true ∧ (sz = .byte → ∀ n, s ≠ .an n)
  | .movea sz s _ => s.Proper ∧ sz ≠ .byte
  | .imm _ _ _ d => d.Proper ∧ d.alterable = true
  | .ccr op _ | .sr op _ => op.status = true
  | .lea s _ => s.Proper ∧ s.control = true
  | .jmp d | .jsr d => d.Proper ∧ d.control = true
  | .bcc _ true d => -(2 ^ 7) ≤ d ∧ d < 2 ^ 7 ∧ d ≠ 0
  | .bcc _ false d => -(2 ^ 15) ≤ d ∧ d < 2 ^ 15
  | .dbcc _ _ d => -(2 ^ 15) ≤ d ∧ d < 2 ^ 15
  | _ => True

theorem signed16 {w : Nat} (h : w < 2 ^ 16) : -(2 ^ 15) ≤ toSigned 16 w ∧ toSigned 16 w < 2 ^ 15 := by
  unfold toSigned; split <;> omega

theorem signed8 {w : Nat} (h : w < 256) : -(2 ^ 7) ≤ toSigned 8 w ∧ toSigned 8 w < 2 ^ 7 ∧ (w ≠ 0 → toSigned 8 w ≠ 0) := by
  unfold toSigned; split <;> omega

theorem decodeIndex_proper {w : Nat} {p : Int × M68Index} (h : decodeIndex w = some p) : -(2 ^ 7) ≤ p.1 ∧ p.1 < 2 ^ 7 := by
  unfold decodeIndex at h
  split at h
  · cases h
    have := signed8 (w := w % 256) (by omega)
    exact ⟨this.1, this.2.1⟩
  · cases h

theorem decodeEa_proper {sz : M68Size} {m r : Nat} {ws ws' : List Nat} {ea : M68Ea} (h : decodeEa sz m r ws = some (ea, ws'))
    (hw : ∀ w ∈ ws, w < 2 ^ 16) : ea.Proper ∧ ∀ w ∈ ws', w < 2 ^ 16 := by
  have hx : ∀ {w : Nat} {g : Int × M68Index → M68Ea × List Nat} {e}, (decodeIndex w).map g = some e → ∃ p, decodeIndex w = some p ∧ g p = e := by
    intro w g e h
    exact Option.map_eq_some_iff.1 h
  unfold decodeEa at h
  split at h
  · cases h; exact ⟨trivial, hw⟩
  · cases h; exact ⟨trivial, hw⟩
  · cases h; exact ⟨trivial, hw⟩
  · cases h; exact ⟨trivial, hw⟩
  · cases h; exact ⟨trivial, hw⟩
  · cases h; exact ⟨signed16 (hw _ (by simp)), fun w h => hw w (by simp [h])⟩
  · obtain ⟨p, hp, e⟩ := hx h
    cases e
    exact ⟨decodeIndex_proper hp, fun w h => hw w (by simp [h])⟩
  · split at h
    · cases h; exact ⟨trivial, fun w h => hw w (by simp [h])⟩
    · cases h; exact ⟨trivial, fun w h => hw w (by simp [h])⟩
    · cases h; exact ⟨signed16 (hw _ (by simp)), fun w h => hw w (by simp [h])⟩
    · obtain ⟨p, hp, e⟩ := hx h
      cases e
      exact ⟨decodeIndex_proper hp, fun w h => hw w (by simp [h])⟩
    · split at h <;> first | (cases h; exact ⟨trivial, fun w h => hw w (by simp [h])⟩) | cases h
    · cases h
  · cases h

theorem decodeMove_proper {sz : M68Size} {w : Nat} {ws ws' : List Nat} {i : M68Instr} (h : decodeMove sz w ws = some (i, ws'))
    (hw : ∀ w ∈ ws, w < 2 ^ 16) : i.Proper := by
  unfold decodeMove at h
  cases h1 : decodeEa sz (w / 8 % 8) (w % 8) ws with
  | none => rw [h1] at h; cases h
  | some p =>
    obtain ⟨src, ws1⟩ := p
    rw [h1] at h
    obtain ⟨p1, hw1⟩ := decodeEa_proper h1 hw
    simp only [Option.bind_eq_bind, Option.bind_some] at h
    split at h
    · cases h
    · next hne =>
      split at h
      · split at h
        · cases h
        · cases h; exact ⟨p1, by assumption⟩
      · cases h2 : decodeEa sz (w / 64 % 8) (w / 512 % 8) ws1 with
        | none => rw [h2] at h; cases h
        | some q =>
          obtain ⟨dst, ws2⟩ := q
          rw [h2] at h
          obtain ⟨p2, -⟩ := decodeEa_proper h2 hw1
          simp only [Option.bind_some] at h
          split at h
          · cases h
            exact ⟨p1, p2, by assumption, fun e n e' => hne n e e'⟩
          · cases h

theorem decodeImm_proper {w : Nat} {ws ws' : List Nat} {i : M68Instr} (h : decodeImm w ws = some (i, ws'))
    (hw : ∀ w ∈ ws, w < 2 ^ 16) : i.Proper := by
  unfold decodeImm at h
  split at h
  · cases h
  · cases h1 : decodeImmOp (w / 512 % 8) with
    | none => rw [h1] at h; cases h
    | some op =>
      cases h2 : decodeSize (w / 64 % 4) with
      | none => rw [h1, h2] at h; cases h
      | some sz =>
        cases h3 : decodeEa sz 7 4 ws with
        | none => rw [h1, h2] at h; simp [h3] at h
        | some p =>
          obtain ⟨v, ws1⟩ := p
          obtain ⟨-, hw1⟩ := decodeEa_proper h3 hw
          rw [h1, h2] at h
          simp only [Option.bind_eq_bind, Option.bind_some, h3] at h
          split at h
          · split at h
            · split at h
              · cases h; assumption
              · cases h; assumption
              · cases h
            · cases h4 : decodeEa sz (w / 8 % 8) (w % 8) ws1 with
              | none => rw [h4] at h; cases h
              | some q =>
                obtain ⟨dst, ws2⟩ := q
                rw [h4] at h
                obtain ⟨p2, -⟩ := decodeEa_proper h4 hw1
                simp only [Option.bind_some] at h
                split at h
                · cases h; exact ⟨p2, by assumption⟩
                · cases h
          · cases h

theorem codeWords_lt : ∀ {bs : Bytes} {ws : List Nat}, codeWords bs = some ws → ∀ w ∈ ws, w < 2 ^ 16
  | [], ws, h => by cases h; simp
  | [_], ws, h => by cases h
  | a :: b :: bs, ws, h => by
    simp only [codeWords, Option.map_eq_some_iff] at h
    obtain ⟨ws', h1, rfl⟩ := h
    intro w hw
    rcases List.mem_cons.1 hw with rfl | hw
    · have := a.isLt; have := b.isLt; omega
    · exact codeWords_lt h1 w hw

theorem disasm_proper {bs : Bytes} {i : M68Instr} (h : disasm68 bs = some i) : i.Proper := by
  unfold disasm68 at h
  cases h1 : codeWords bs with
  | none => rw [h1] at h; cases h
  | some ws =>
    rw [h1, Option.bind_some] at h
    have hw := codeWords_lt h1
    cases h2 : decode68 ws with
    | none => rw [h2] at h; cases h
    | some p =>
      obtain ⟨j, ws'⟩ := p
      have hj : j = i := by
        rw [h2] at h
        cases ws' with
        | nil => simpa using h
        | cons => simp at h
      subst hj
      clear h
      cases ws with
      | nil => cases h2
      | cons w ws =>
        have hw0 : w < 2 ^ 16 := hw w (by simp)
        have hw : ∀ w ∈ ws, w < 2 ^ 16 := fun w h => hw w (by simp [h])
        unfold decode68 at h2
        simp only at h2
        split at h2
        · exact decodeImm_proper h2 hw
        · exact decodeMove_proper h2 hw
        · exact decodeMove_proper h2 hw
        · exact decodeMove_proper h2 hw
        · split at h2
          · cases h2; trivial
          · split at h2
            · cases h2; trivial
            · split at h2
              · cases h3 : decodeEa .long (w / 8 % 8) (w % 8) ws with
                | none => rw [h3] at h2; cases h2
                | some q =>
                  obtain ⟨ea, ws2⟩ := q
                  rw [h3] at h2
                  simp only [Option.bind_eq_bind, Option.bind_some] at h2
                  split at h2
                  · cases h2; exact ⟨(decodeEa_proper h3 hw).1, by assumption⟩
                  · cases h2
              · split at h2
                · cases h3 : decodeEa .long (w / 8 % 8) (w % 8) ws with
                  | none => rw [h3] at h2; cases h2
                  | some q =>
                    obtain ⟨ea, ws2⟩ := q
                    rw [h3] at h2
                    simp only [Option.bind_eq_bind, Option.bind_some] at h2
                    split at h2
                    · split at h2 <;> (cases h2; exact ⟨(decodeEa_proper h3 hw).1, by assumption⟩)
                    · cases h2
                · cases h2
        · split at h2
          · split at h2
            · cases h2; exact signed16 (hw _ (by simp))
            · cases h2
          · cases h2
        · split at h2
          · split at h2
            · cases h2; exact signed16 (hw _ (by simp))
            · cases h2
          · next hne =>
            cases h2
            have := signed8 (w := w % 256) (by omega)
            exact ⟨this.1, this.2.1, this.2.2 hne⟩
        · cases h2

/-! ## from the text of an operand to its form -/

/-- Filling the form with the number written gives the operand. -/
def EaForm.Gives (value : M68Use → Nat → Str → Int → Prop) (f : EaForm) (sz : M68Size) (pc : Int) (off : Nat) (ea : M68Ea) : Prop :=
  (f.slot sz pc off = none ∧ ∀ v, f.fill sz v = ea) ∨
  ∃ p x, f.slot sz pc off = some p ∧ value p.1 p.2.1.bitsSize p.2.1.label x ∧ ∀ v, v % 2 ^ p.2.1.bitsSize = x % 2 ^ p.2.1.bitsSize → f.fill sz v = ea

theorem signed_back16 {v x d : Int} (h : v % 2 ^ 16 = x % 2 ^ 16) (hd : d % 2 ^ 16 = x % 2 ^ 16) (hr : -(2 ^ 15) ≤ d ∧ d < 2 ^ 15) :
    toSigned 16 (v % 2 ^ 16).toNat = d := by
  unfold toSigned; split <;> omega

theorem signed_back8 {v x d : Int} (h : v % 2 ^ 8 = x % 2 ^ 8) (hd : d % 2 ^ 8 = x % 2 ^ 8) (hr : -(2 ^ 7) ≤ d ∧ d < 2 ^ 7) :
    toSigned 8 (v % 2 ^ 8).toNat = d := by
  unfold toSigned; split <;> omega

theorem toNat_back {n : Nat} {v x : Int} {k : Nat} (h : v % 2 ^ n = x % 2 ^ n) (hk : (k : Int) = x % 2 ^ n) : (v % 2 ^ n).toNat = k := by
  rw [h, ← hk]; rfl

theorem short_back {v x : Int} {a : Nat} (h : v % 2 ^ 16 = x % 2 ^ 16) (ha : (a : Int) = x % 2 ^ 32) (hx : -(2 ^ 15) ≤ x ∧ x < 2 ^ 15) :
    (toSigned 16 (v % 2 ^ 16).toNat % 2 ^ 32).toNat = a := by
  unfold toSigned; split <;> omega

/-- The short absolute addresses among the tokens. -/
def ShortIn (ts : List Str) (v : Str) : Prop := ∃ t, eqNoCase t ".W".toList ∧ (v ++ t ∈ ts ∨ ∃ pre post, ts = pre ++ ['('] :: v :: [')'] :: t :: post)

theorem ea_form {value : M68Use → Nat → Str → Int → Prop} {sz : M68Size} {ea : M68Ea} {ts : List Str} (h : M68EaText value sz ea ts) (hp : ea.Proper)
    (hs : ∀ v x, ShortIn ts v → value .data 16 v x → -(2 ^ 15) ≤ x ∧ x < 2 ^ 15) :
    ∃ f : EaForm, f.Text ts ∧ (ea.alterable = true → f.mode ∉ m68Alterable) ∧ (ea.control = true → f.mode ∉ m68Control) ∧
      (f.mode = .an → ∃ n, ea = .an n) ∧ ∀ pc off, f.Gives value sz pc off ea := by
  cases h with
  | @dn n t h => exact ⟨.dn n, .dn h, by simp [EaForm.mode, m68Alterable], by simp [M68Ea.control], by simp [EaForm.mode], fun _ _ => .inl ⟨rfl, fun _ => rfl⟩⟩
  | @an n t h => exact ⟨.an n, .an h, by simp [M68Ea.alterable], by simp [M68Ea.control], fun _ => ⟨n, rfl⟩, fun _ _ => .inl ⟨rfl, fun _ => rfl⟩⟩
  | @ind n t h => exact ⟨.ind n, .ind h, by simp [EaForm.mode, m68Alterable], by simp [EaForm.mode, m68Control], by simp [EaForm.mode], fun _ _ => .inl ⟨rfl, fun _ => rfl⟩⟩
  | @post n t h => exact ⟨.post n, .post h, by simp [EaForm.mode, m68Alterable], by simp [M68Ea.control], by simp [EaForm.mode], fun _ _ => .inl ⟨rfl, fun _ => rfl⟩⟩
  | @pre n t h => exact ⟨.pre n, .pre h, by simp [EaForm.mode, m68Alterable], by simp [M68Ea.control], by simp [EaForm.mode], fun _ _ => .inl ⟨rfl, fun _ => rfl⟩⟩
  | @disp d n v t x h h1 h2 h3 =>
    exact ⟨.disp v n, .disp h h3, by simp [EaForm.mode, m68Alterable], by simp [EaForm.mode, m68Control], by simp [EaForm.mode], fun _ _ =>
      .inr ⟨_, x, rfl, h1, fun v hv => by simp only [EaForm.fill]; rw [signed_back16 hv h2 hp]⟩⟩
  | @idx d n i v t u x h h1 h2 h3 h4 =>
    exact ⟨.idx v n i, .idx h h3 h4, by simp [EaForm.mode, m68Alterable], by simp [EaForm.mode, m68Control], by simp [EaForm.mode], fun _ _ =>
      .inr ⟨_, x, rfl, h1, fun v hv => by simp only [EaForm.fill]; rw [signed_back8 hv h2 hp]⟩⟩
  | @pcDisp d v p x h h1 h2 h3 =>
    exact ⟨.pcDisp v, .pcDisp h h3, by simp [M68Ea.alterable], by simp [EaForm.mode, m68Control], by simp [EaForm.mode], fun _ _ =>
      .inr ⟨_, x, rfl, h1, fun v hv => by simp only [EaForm.fill]; rw [signed_back16 hv h2 hp]⟩⟩
  | @pcIdx d i v p u x h h1 h2 h3 h4 =>
    exact ⟨.pcIdx v i, .pcIdx h h3 h4, by simp [M68Ea.alterable], by simp [EaForm.mode, m68Control], by simp [EaForm.mode], fun _ _ =>
      .inr ⟨_, x, rfl, h1, fun v hv => by simp only [EaForm.fill]; rw [signed_back8 hv h2 hp]⟩⟩
  | @absW a v s x h h1 h2 h3 =>
    exact ⟨.absW v, .absW h h3, by simp [EaForm.mode, m68Alterable], by simp [EaForm.mode, m68Control], by simp [EaForm.mode], fun _ _ =>
      .inr ⟨_, x, rfl, h1, fun v' hv => by
        simp only [EaForm.fill]; rw [short_back hv h2 (hs v x ⟨s, h3, .inr ⟨[], [], rfl⟩⟩ h1)]⟩⟩
  | @absW' a v s x h h1 h2 h3 =>
    exact ⟨.absW v, .absW' h h3, by simp [EaForm.mode, m68Alterable], by simp [EaForm.mode, m68Control], by simp [EaForm.mode], fun _ _ =>
      .inr ⟨_, x, rfl, h1, fun v' hv => by
        simp only [EaForm.fill]; rw [short_back hv h2 (hs v x ⟨s, h3, .inl (by simp)⟩ h1)]⟩⟩
  | @absL a v s x h h1 h2 h3 =>
    exact ⟨.absL v, .absL h h3, by simp [EaForm.mode, m68Alterable], by simp [EaForm.mode, m68Control], by simp [EaForm.mode], fun _ _ =>
      .inr ⟨_, x, rfl, h1, fun v hv => by simp only [EaForm.fill]; rw [toNat_back hv h2]⟩⟩
  | @absL' a v s x h h1 h2 h3 =>
    exact ⟨.absL v, .absL' h h3, by simp [EaForm.mode, m68Alterable], by simp [EaForm.mode, m68Control], by simp [EaForm.mode], fun _ _ =>
      .inr ⟨_, x, rfl, h1, fun v hv => by simp only [EaForm.fill]; rw [toNat_back hv h2]⟩⟩
  | @abs a v x h h0 h1 h2 =>
    exact ⟨.absL v, .abs h h0, by simp [EaForm.mode, m68Alterable], by simp [EaForm.mode, m68Control], by simp [EaForm.mode], fun _ _ =>
      .inr ⟨_, x, rfl, h1, fun v hv => by simp only [EaForm.fill]; rw [toNat_back hv h2]⟩⟩
  | @imm n v x h0 h1 h2 =>
    refine ⟨.imm v, .imm h0, by simp [M68Ea.alterable], by simp [M68Ea.control], by simp [EaForm.mode], fun _ _ => .inr ⟨_, x, rfl, ?_, ?_⟩⟩
    · simp only [show m68Bytes sz * 8 = sz.bits by cases sz <;> rfl]; exact h1
    · intro v hv
      simp only [show m68Bytes sz * 8 = sz.bits by cases sz <;> rfl] at hv
      simp only [EaForm.fill]; rw [toNat_back hv h2]

/-! ## reading numbers -/

theorem sign_no_number {ls : Labels} {u : Str} (h : reservedName u) (x : Int) (dec : Bool) : ¬ TokenValue mc68000.sy ls u x dec := by
  have hup : ∀ (a p : Char), a.toUpper = p → p.isLower = false → a = p ∨ a = p.toLower := by
    intro a p h1 h2
    have := upper_single (t := [a]) h2 (by simp [upper, h1])
    simpa using this
  have key : u ∈ ["+", "-", "C", "c", "R", "r", "S", "s", "CCR", "CCr", "CcR", "Ccr", "cCR", "cCr", "ccR", "ccr", "SR", "Sr", "sR", "sr"].map String.toList := by
    have letter : ∀ s, s = "CCR" ∨ s = "SR" → M68Letter u s → u = ['C'] ∨ u = ['c'] ∨ u = ['R'] ∨ u = ['r'] ∨ u = ['S'] ∨ u = ['s'] := by
      rintro s hs ⟨x, hx, h⟩
      have hl : u.length = 1 := by simpa using congrArg List.length h
      match u, hl with
      | [a], _ =>
        have : a.toUpper = x.toUpper := by simpa [eqNoCase] using h
        have hx' : x = 'C' ∨ x = 'R' ∨ x = 'S' := by
          rcases hs with rfl | rfl <;> simp at hx <;> rcases hx with rfl | rfl <;> simp
        rcases hx' with rfl | rfl | rfl
        · rcases hup a 'C' this (by decide) with rfl | rfl <;> simp
        · rcases hup a 'R' this (by decide) with rfl | rfl <;> simp
        · rcases hup a 'S' this (by decide) with rfl | rfl <;> simp
    rcases h with rfl | rfl | h | h
    · simp
    · simp
    · rcases (matches_name u "CCR").1 h with h | h
      · have hl : u.length = 3 := by simpa using congrArg List.length h
        match u, hl with
        | [a, b, d], _ =>
          have : a.toUpper = 'C' ∧ b.toUpper = 'C' ∧ d.toUpper = 'R' := by simpa [eqNoCase] using h
          rcases hup a 'C' this.1 (by decide) with rfl | rfl <;> rcases hup b 'C' this.2.1 (by decide) with rfl | rfl <;>
            rcases hup d 'R' this.2.2 (by decide) with rfl | rfl <;> decide
      · rcases letter _ (.inl rfl) h with rfl | rfl | rfl | rfl | rfl | rfl <;> decide
    · rcases (matches_name u "SR").1 h with h | h
      · have hl : u.length = 2 := by simpa using congrArg List.length h
        match u, hl with
        | [a, b], _ =>
          have : a.toUpper = 'S' ∧ b.toUpper = 'R' := by simpa [eqNoCase] using h
          rcases hup a 'S' this.1 (by decide) with rfl | rfl <;> rcases hup b 'R' this.2 (by decide) with rfl | rfl <;> decide
      · rcases letter _ (.inr rfl) h with rfl | rfl | rfl | rfl | rfl | rfl <;> decide
  have none : ∀ u ∈ ["+", "-", "C", "c", "R", "r", "S", "s", "CCR", "CCr", "CcR", "Ccr", "cCR", "cCr", "ccR", "ccr", "SR", "Sr", "sR", "sr"].map String.toList,
      (match internalParseInteger mc68000.sy (getMathFormula u).body with
        | .ok (some _) => false
        | _ => true) = true := by decide +kernel
  rintro ⟨lit, h1, -⟩
  have := none u key
  rw [h1] at this
  cases this

/-- A number is read from its slot. -/
theorem slot_reads {c : Ctx} (hsy : c.sy = mc68000.sy) {p : M68Slot} (hp : SlotOk p) {x : Int} (h : m68Number c p.1 p.2.1.bitsSize p.2.1.label x) :
    SlotSafe (some p) ∧ ∃ v, SlotRead (some p) c v [] ∧ v % 2 ^ p.2.1.bitsSize = x % 2 ^ p.2.1.bitsSize := by
  constructor
  · intro q hq hr
    cases hq
    obtain ⟨dec, hx, -⟩ := h
    rw [hsy] at hx
    exact sign_no_number hr x dec hx
  · obtain ⟨v, h1, h2⟩ := slot_number hp h
    exact ⟨v, .inr ⟨p, rfl, h1⟩, h2⟩

theorem form_reads {c : Ctx} (hsy : c.sy = mc68000.sy) (hpc : 0 ≤ c.pc) {f : EaForm} {sz : M68Size} {off : Nat} {ea : M68Ea}
    (h : f.Gives (m68Number c) sz c.pc off ea) : SlotSafe (f.slot sz c.pc off) ∧ ∃ v, SlotRead (f.slot sz c.pc off) c v [] ∧ f.fill sz v = ea := by
  rcases h with ⟨h1, h2⟩ | ⟨p, x, h1, h2, h3⟩
  · rw [h1]
    exact ⟨(by intro p hp; cases hp), 0, .inl ⟨rfl, rfl⟩, h2 0⟩
  · rw [h1]
    obtain ⟨h4, v, h5, h6⟩ := slot_reads hsy (EaForm.slot_ok hpc h1) h2
    exact ⟨h4, v, h5, h3 v h6⟩

end Necro
