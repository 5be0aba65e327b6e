import Verif.Spec.Instr
import Verif.Lemmas.Macros
import Verif.Lemmas.Pack
import Verif.Lemmas.Elf
/-!
# Instruction handlers
-/

namespace Necro
open Spec

namespace H

theorem bind_ok {m : H α} {f : α → H β} {c : Ctx} {b : β} {rels : List Reloc} (h : (m >>= f) c = (.ok b, rels)) :
    ∃ a r r', m c = (.ok a, r) ∧ f a c = (.ok b, r') ∧ rels = r ++ r' := by
  have h : H.bind m f c = (.ok b, rels) := h
  unfold H.bind at h
  split at h
  · next a r hm =>
    cases hf : f a c with
    | mk x r' => rw [hf] at h; simp only [Prod.mk.injEq] at h; exact ⟨a, r, r', hm, by rw [hf, h.1], h.2.symm⟩
  · simp at h

theorem bind_of {m : H α} {f : α → H β} {c : Ctx} {a : α} {r r' : List Reloc} {x : Except Err β} (h : m c = (.ok a, r))
    (h' : f a c = (x, r')) : (m >>= f) c = (x, r ++ r') := by
  show H.bind m f c = _
  unfold H.bind
  rw [h]; simp only [h']

theorem bind_run {m : H α} {f : α → H β} {c : Ctx} {a : α} (h : m c = (.ok a, [])) : (m >>= f) c = f a c :=
  bind_of h rfl

theorem bind_error {m : H α} {f : α → H β} {c : Ctx} {e : Err} {r : List Reloc} (h : m c = (.error e, r)) :
    (m >>= f) c = (.error e, r) := by
  show H.bind m f c = _
  unfold H.bind
  rw [h]

@[simp] theorem pure_apply (a : α) (c : Ctx) : (Pure.pure a : H α) c = (.ok a, []) := rfl
@[simp] theorem throw_apply (e : Err) (c : Ctx) : (H.throw e : H α) c = (.error e, []) := rfl
@[simp] theorem read_apply (c : Ctx) : H.read c = (.ok c, []) := rfl
@[simp] theorem lift_apply (x : Except Err α) (c : Ctx) : H.lift x c = (x, []) := rfl
@[simp] theorem reloc_apply (r : Reloc) (c : Ctx) : H.reloc r c = (.ok (), [r]) := rfl
theorem parseInteger_apply (t : Str) (n : Nat) (b : Bool) (c : Ctx) :
    H.parseInteger t n b c = (Necro.parseInteger c.sy c.labels t n b, []) := rfl
theorem labelAddress_apply (t : Str) (c : Ctx) : H.labelAddress t c = (Necro.labelAddress c.sy c.labels t, []) := rfl

/-- An operand that is a number or a label. -/
theorem parseIntegerOrLabel_ok {r : Reloc} {signed : Bool} {c : Ctx} {v : Int} {rels : List Reloc}
    (h : H.parseIntegerOrLabel r signed c = (.ok v, rels)) :
    (Necro.parseInteger c.sy c.labels r.label r.bitsSize (signed || r.relative != 0) = .ok (some v) ∧ rels = []) ∨
    (Necro.parseInteger c.sy c.labels r.label r.bitsSize (signed || r.relative != 0) = .ok none ∧ v = 0 ∧ rels = [r]) := by
  unfold H.parseIntegerOrLabel at h
  split at h
  · simp at h
  · next hp => simp only [Prod.mk.injEq, Except.ok.injEq] at h; exact .inl ⟨by rw [hp, h.1], h.2.symm⟩
  · next hp => simp only [Prod.mk.injEq, Except.ok.injEq] at h; exact .inr ⟨hp, h.1.symm, h.2.symm⟩

end H

theorem dget_eq_lookup_nat {α : Type} (d : List (Nat × α)) (k : Nat) : dget d k = d.lookup k := by
  induction d with
  | nil => rfl
  | cons p d ih =>
    obtain ⟨x, y⟩ := p
    by_cases h : x = k
    · simp [dget, h]
    · have h' : (k == x) = false := by simp [Ne.symm h]
      simp [dget, h, List.lookup, h', ih]

/-! ## instruction statements -/

/-- An instruction assembles to one thing only. -/
theorem Emits.unique {d : Dialect} {c : Ctx} {t : Str} {rest : List Str} {b b' : Bytes} {r r' : List Reloc}
    (h : Emits d c t rest b r) (h' : Emits d c t rest b' r') : b = b' ∧ r = r' := by
  cases h with
  | fixed hf _ =>
    cases h' with
    | fixed hf' _ => rw [hf] at hf'; cases hf'; exact ⟨rfl, rfl⟩
    | handler hf' _ => rw [hf] at hf'; cases hf'
  | handler hf he =>
    cases h' with
    | fixed hf' _ => rw [hf] at hf'; cases hf'
    | handler hf' he' => rw [hf] at hf'; cases hf'; rw [he] at he'; cases he'; exact ⟨rfl, rfl⟩

/-- The state after an instruction. -/
def emitted (s : St) (blob : Bytes) (rels : List Reloc) : St :=
  { rels.foldl addReloc s with bytes := s.bytes ++ blob, counter := s.counter + blob.length }

theorem foldl_addReloc_bytes (l : List Reloc) : ∀ s : St,
    (l.foldl addReloc s).bytes = s.bytes ∧ (l.foldl addReloc s).counter = s.counter := by
  induction l with
  | nil => intro s; exact ⟨rfl, rfl⟩
  | cons r l ih => intro s; simp only [List.foldl_cons]; exact ih (addReloc s r)

/-- An instruction statement succeeds exactly when the instruction assembles, and then
appends its bytes and records its references. -/
theorem execInstr_emits (d : Dialect) (depth : Nat) (tokens : List Str) (l : Nat) (s s' : St) (hr : s.recording = none)
    (t : Str) (rest : List Str) (ht : substituteWithDict tokens s.defines 0 = t :: rest)
    (hm : s.macros.lookup (d.key t) = none) :
    execInstr d (depth + 1) none ⟨.instr, tokens, l⟩ s = (.ok (), s') ↔
      ∃ blob rels, Emits d (ctxOf d s) t rest blob rels ∧ s' = emitted s blob rels := by
  rw [execInstr_eq d depth none _ s hr ht]
  rw [← dget_eq_lookup] at hm
  rw [hm]
  have hs : ({ s with macros := wbTable none (t :: rest) s.macros } : St) = s := rfl
  rw [hs]
  simp only
  cases hi : d.instrs (d.key t) with
  | none =>
    simp only
    constructor
    · intro h; cases h
    · rintro ⟨b, r, h, _⟩
      cases h with
      | fixed h _ => rw [hi] at h; cases h
      | handler h _ => rw [hi] at h; cases h
  | some i =>
    cases i with
    | fixed blob =>
      simp only
      by_cases hl : (t :: rest).length ≠ 1
      · rw [if_pos hl]
        constructor
        · intro h; cases h
        · rintro ⟨b, r, h, _⟩
          cases h with
          | fixed h h2 => subst h2; simp at hl
          | handler h _ => rw [hi] at h; cases h
      · rw [if_neg hl]
        have hr0 : rest = [] := by cases rest with
          | nil => rfl
          | cons _ _ => simp at hl
        constructor
        · intro h
          refine ⟨blob, [], .fixed hi hr0, ?_⟩
          cases h; rfl
        · rintro ⟨b, r, h, h2⟩
          cases h with
          | fixed h h3 => rw [hi] at h; cases h; rw [h2]; rfl
          | handler h _ => rw [hi] at h; cases h
    | handler f =>
      simp only
      rw [bind_eq]
      unfold runHandler
      cases hf : f (t :: rest) ⟨s.pc, s.labels, d.sy, s.bitsMode⟩ with
      | mk x rels =>
        have hem : ∀ blob r', Emits d (ctxOf d s) t rest blob r' ↔ x = .ok (some blob) ∧ r' = rels := by
          intro blob r'
          constructor
          · intro h
            cases h with
            | fixed h _ => rw [hi] at h; cases h
            | handler h h2 =>
              rw [hi] at h; cases h
              have h2 : f (t :: rest) ⟨s.pc, s.labels, d.sy, s.bitsMode⟩ = _ := h2
              rw [hf] at h2; cases h2; exact ⟨rfl, rfl⟩
          · rintro ⟨rfl, rfl⟩; exact .handler hi hf
        simp only
        cases x with
        | error e =>
          simp only
          constructor
          · intro h; cases h
          · rintro ⟨b, r, h, _⟩; rw [hem] at h; cases h.1
        | ok o =>
          cases o with
          | none =>
            simp only
            constructor
            · intro h; cases h
            · rintro ⟨b, r, h, _⟩; rw [hem] at h; cases h.1
          | some blob =>
            simp only
            have : appendBytes blob (rels.foldl addReloc s) = (.ok (), emitted s blob rels) := by
              have h1 := (foldl_addReloc_bytes rels s).1
              have h2 := (foldl_addReloc_bytes rels s).2
              unfold emitted
              rw [← h1, ← h2]; rfl
            rw [this]
            constructor
            · intro h; cases h; exact ⟨blob, rels, (hem _ _).2 ⟨rfl, rfl⟩, rfl⟩
            · rintro ⟨b, r, h, h2⟩
              rw [hem] at h
              obtain ⟨h3, h4⟩ := h
              cases h3; subst h4; rw [h2]

/-! ## case folding -/

theorem toUpper_eq {c r : Char} (hr : r.isLower = false) (h : c.toUpper = r) : c = r ∨ c = r.toLower := by
  unfold Char.toUpper at h
  split at h
  · next hc =>
    right
    have hv : c.val + ('A'.val - 'a'.val) = r.val := by rw [← h]
    have hv' : r.val.toNat = c.val.toNat - 32 := by
      rw [← hv]
      have h1 : 97 ≤ c.val.toNat := hc.1
      have h2 : c.val.toNat ≤ 122 := hc.2
      rw [UInt32.toNat_add]
      have : ('A'.val - 'a'.val).toNat = 2^32 - 32 := by decide
      rw [this]; omega
    have h1 : 97 ≤ c.val.toNat := hc.1
    have h2 : c.val.toNat ≤ 122 := hc.2
    unfold Char.toLower
    have hru : 'A'.val ≤ r.val ∧ r.val ≤ 'Z'.val := by
      constructor
      · show (65 : Nat) ≤ r.val.toNat; omega
      · show r.val.toNat ≤ (90 : Nat); omega
    rw [dif_pos hru]
    apply Char.ext
    apply UInt32.toNat_inj.1
    show c.val.toNat = (r.val + ('a'.val - 'A'.val)).toNat
    rw [UInt32.toNat_add]
    have : ('a'.val - 'A'.val).toNat = 32 := by decide
    rw [this]; omega
  · exact .inl h

theorem upper_single {t : Str} {r : Char} (hr : r.isLower = false) (h : upper t = [r]) : t = [r] ∨ t = [r.toLower] := by
  unfold upper at h
  match t, h with
  | [c], h =>
    simp only [List.map_cons, List.map_nil, List.cons.injEq, and_true] at h
    rcases toUpper_eq hr h with h | h
    · exact .inl (by rw [h])
    · exact .inr (by rw [h])

/-! ## packing -/

theorem packByte_ok (l : List Int) : packByte (l.map some) = .ok (l.map (BitVec.ofInt 8)) := by
  unfold packByte
  have : (l.map some).map (maskArg 8) = l.map (· % 2 ^ 8) := by
    simp [maskArg_eq, Function.comp_def]
  rw [this, structPack_fits]
  · congr 1
    induction l with
    | nil => rfl
    | cons v l ih =>
      simp only [List.map_cons, List.flatMap_cons, Fmt.size, Bool.false_eq_true, if_false] at ih ⊢
      rw [ih (by simp [maskArg_eq, Function.comp_def])]
      simp only [leBytes, List.cons_append, List.nil_append, List.cons.injEq, and_true]
      apply BitVec.eq_of_toInt_eq
      simp only [BitVec.toInt_ofInt]
      exact Int.emod_bmod v 256
  · intro v hv
    obtain ⟨x, _, rfl⟩ := List.mem_map.1 hv
    simp only [Fmt.fits]
    have h1 := Int.emod_nonneg x (show (2:Int)^8 ≠ 0 by decide)
    have h2 := Int.emod_lt_of_pos x (show (0:Int) < 2^8 by decide)
    simp; omega

end Necro
