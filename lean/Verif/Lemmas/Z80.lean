import Verif.Lemmas.Z80Find
import Verif.Lemmas.I86Line
/-!
# Lines of Z80 assembly
-/

namespace Necro
open Spec

/-! ## tokens and the words of the table -/

section
variable (value : M68Use → Nat → Str → Int → Prop) (d v : Int)

/-- The token writes the argument `k` of the table. -/
inductive Z80KeyText : String → Str → Prop
  | n {t x} : value .data 8 t x → v = x % 256 → Z80KeyText "n" t
  | nn {t x} : value .data 16 t x → v = x % 65536 → Z80KeyText "nn" t
  | e {t x} : value .pc 8 t x → v % 256 = x % 256 → Z80KeyText "e" t
  | plus {iy : Bool} {r t x} : eqNoCase r (if iy then "IY" else "IX").toList → value .disp 8 t x → d % 256 = x % 256 →
      Z80KeyText (if iy then "IY+d" else "IX+d") (r ++ '+' :: t)
  | minus {iy : Bool} {r t x} : eqNoCase r (if iy then "IY" else "IX").toList → value .disp 8 ('-' :: t) x → d % 256 = x % 256 →
      Z80KeyText (if iy then "IY+d" else "IX+d") (r ++ '-' :: t)
  | lit {k t} : z80Hook k = none → eqNoCase t k.toList → Z80KeyText k t

inductive Z80Keys : List String → List Str → Prop
  | nil : Z80Keys [] []
  | cons {k ks t ts} : Z80KeyText value d v k t → Z80Keys ks ts → Z80Keys (k :: ks) (t :: ts)

end

section
variable {value : M68Use → Nat → Str → Int → Prop} {d v : Int}

theorem exact_eq {k : String} (hk : z80Exact k = true) {t : Str} (h : eqNoCase t k.toList) : t = k.toList := by
  unfold eqNoCase at h
  unfold z80Exact at hk
  revert t
  generalize k.toList = l at hk ⊢
  induction l with
  | nil => intro t h; simpa using h
  | cons c cs ih =>
    intro t h
    cases t with
    | nil => simp at h
    | cons a t =>
      simp only [List.map_cons, List.cons.injEq] at h
      simp only [List.all_cons, Bool.and_eq_true, Bool.not_eq_true'] at hk
      have hc : c.toUpper = c := by
        have : ¬ (97 ≤ c.val ∧ c.val ≤ 122) := by
          have := hk.1.1
          simpa [Char.isLower] using this
        unfold Char.toUpper
        rw [dif_neg]
        exact this
      have hl : c.toLower = c := by
        have : ¬ (65 ≤ c.val ∧ c.val ≤ 90) := by
          have := hk.1.2
          simpa [Char.isUpper] using this
        unfold Char.toLower
        rw [dif_neg]
        exact this
      rw [hc] at h
      have := toUpper_eq hk.1.1 h.1
      rw [hl, or_self] at this
      rw [this, ih hk.2 h.2]

theorem paren_eq {t : Str} (h : eqNoCase t "(".toList) : t = ['('] := exact_eq (k := "(") (by decide) h
theorem paren_eq' {t : Str} (h : eqNoCase t ")".toList) : t = [')'] := exact_eq (k := ")") (by decide) h

theorem Z80KeyText.lit_of {k : String} (hk : z80Hook k = none) {t : Str} (h : Z80KeyText value d v k t) : eqNoCase t k.toList := by
  cases h with
  | n | nn | e => exact absurd hk (by decide)
  | @plus iy | @minus iy => cases iy <;> exact absurd hk (by decide)
  | lit _ h => exact h

theorem Z80Keys.one {k : String} {rest : List Str} (h : Z80Keys value d v [k] rest) : ∃ t, rest = [t] ∧ Z80KeyText value d v k t := by
  cases h with
  | cons h h' => cases h'; exact ⟨_, rfl, h⟩

theorem keys_split : ∀ {ks ks' : List String} {rest : List Str}, Z80Keys value d v (ks ++ ks') rest →
    ∃ r r', rest = r ++ r' ∧ Z80Keys value d v ks r ∧ Z80Keys value d v ks' r'
  | [], _, rest, h => ⟨[], rest, rfl, .nil, h⟩
  | k :: ks, ks', _, h => by
    cases h with
    | cons h1 h2 =>
      obtain ⟨r, r', rfl, h3, h4⟩ := keys_split h2
      exact ⟨_ :: r, r', rfl, .cons h1 h3, h4⟩

theorem Z80Keys.append : ∀ {ks ks' : List String} {r r' : List Str}, Z80Keys value d v ks r → Z80Keys value d v ks' r' →
    Z80Keys value d v (ks ++ ks') (r ++ r')
  | _, _, _, _, .nil, h => h
  | _, _, _, _, .cons h h', h'' => .cons h (h'.append h'')

/-- An operand between parentheses. -/
theorem Z80Keys.paren {k : String} {rest : List Str} (h : Z80Keys value d v ["(", k, ")"] rest) :
    ∃ t, rest = [['('], t, [')']] ∧ Z80KeyText value d v k t := by
  cases h with
  | cons h1 h => cases h with
    | cons h2 h => cases h with
      | cons h3 h =>
        cases h
        rw [paren_eq (h1.lit_of (by decide)), paren_eq' (h3.lit_of (by decide))]
        exact ⟨_, rfl, h2⟩

theorem idx_key {iy : Bool} {t : Str} (h : Z80KeyText value d v (if iy then "IY+d" else "IX+d") t) : Z80ArgText value d v (.idx iy) [['('], t, [')']] := by
  generalize hk : (if iy then "IY+d" else "IX+d" : String) = k at h
  cases h with
  | n | nn | e => cases iy <;> simp at hk
  | @plus iy' _ _ _ h1 h2 h3 =>
    have : iy' = iy := by cases iy <;> cases iy' <;> simp at hk <;> rfl
    subst this
    exact .plus h1 h2 h3
  | @minus iy' _ _ _ h1 h2 h3 =>
    have : iy' = iy := by cases iy <;> cases iy' <;> simp at hk <;> rfl
    subst this
    exact .minus h1 h2 h3
  | lit hk' => subst hk; cases iy <;> exact absurd hk' (by decide)

theorem n_key {t : Str} (h : Z80KeyText value d v "n" t) : ∃ x, value .data 8 t x ∧ v = x % 256 := by
  generalize hk : ("n" : String) = k at h
  cases h with
  | n h h' => exact ⟨_, h, h'⟩
  | nn | e => simp at hk
  | @plus iy | @minus iy => cases iy <;> simp at hk
  | lit hk' => subst hk; exact absurd hk' (by decide)

theorem nn_key {t : Str} (h : Z80KeyText value d v "nn" t) : ∃ x, value .data 16 t x ∧ v = x % 65536 := by
  generalize hk : ("nn" : String) = k at h
  cases h with
  | nn h h' => exact ⟨_, h, h'⟩
  | n | e => simp at hk
  | @plus iy | @minus iy => cases iy <;> simp at hk
  | lit hk' => subst hk; exact absurd hk' (by decide)

theorem e_key {t : Str} (h : Z80KeyText value d v "e" t) : ∃ x, value .pc 8 t x ∧ v % 256 = x % 256 := by
  generalize hk : ("e" : String) = k at h
  cases h with
  | e h h' => exact ⟨_, h, h'⟩
  | n | nn => simp at hk
  | @plus iy | @minus iy => cases iy <;> simp at hk
  | lit hk' => subst hk; exact absurd hk' (by decide)

/-- The words of an operand write it. -/
theorem arg_of_keys {a : Z80Arg} (ha : z80ArgOk a = true) {rest : List Str} (h : Z80Keys value d v (z80Key a) rest) : Z80ArgText value d v a rest := by
  cases a with
  | reg n =>
    obtain ⟨t, rfl, hk⟩ := h.one
    exact .reg (hk.lit_of (by simpa [z80ArgOk] using ha))
  | cond n =>
    obtain ⟨t, rfl, hk⟩ := h.one
    exact .cond (hk.lit_of (by simpa [z80ArgOk] using ha))
  | op n =>
    obtain ⟨t, rfl, hk⟩ := h.one
    exact .op (hk.lit_of (by simpa [z80ArgOk] using ha))
  | mem n =>
    obtain ⟨t, rfl, hk⟩ := h.paren
    exact .mem (hk.lit_of (by simpa [z80ArgOk] using ha))
  | idx iy =>
    obtain ⟨t, rfl, hk⟩ := h.paren
    exact idx_key hk
  | bit n =>
    obtain ⟨t, rfl, hk⟩ := h.one
    simp only [z80ArgOk, Bool.and_eq_true, Option.isNone_iff_eq_none] at ha
    exact .bit (exact_eq ha.2 (hk.lit_of ha.1))
  | vec n =>
    obtain ⟨t, rfl, hk⟩ := h.one
    exact .vec (hk.lit_of (by simpa [z80ArgOk] using ha))
  | mode n =>
    obtain ⟨t, rfl, hk⟩ := h.one
    simp only [z80ArgOk, Bool.and_eq_true, Option.isNone_iff_eq_none] at ha
    exact .mode (exact_eq ha.2 (hk.lit_of ha.1))
  | zero =>
    obtain ⟨t, rfl, hk⟩ := h.one
    rw [exact_eq (k := "0") (by decide) (hk.lit_of (by decide))]
    exact .zero
  | imm8 =>
    obtain ⟨t, rfl, hk⟩ := h.one
    obtain ⟨x, h1, h2⟩ := n_key hk
    exact .imm8 h1 h2
  | imm16 =>
    obtain ⟨t, rfl, hk⟩ := h.one
    obtain ⟨x, h1, h2⟩ := nn_key hk
    exact .imm16 h1 h2
  | mem16 =>
    obtain ⟨t, rfl, hk⟩ := h.paren
    obtain ⟨x, h1, h2⟩ := nn_key hk
    exact .mem16 h1 h2
  | port =>
    obtain ⟨t, rfl, hk⟩ := h.paren
    obtain ⟨x, h1, h2⟩ := n_key hk
    exact .port h1 h2
  | rel =>
    obtain ⟨t, rfl, hk⟩ := h.one
    obtain ⟨x, h1, h2⟩ := e_key hk
    exact .rel h1 h2

theorem Z80KeyText.paren {k : String} {t : Str} (h : Z80KeyText value d v k t) : Z80Keys value d v ["(", k, ")"] [['('], t, [')']] :=
  .cons (.lit (by decide) rfl) (.cons h (.cons (.lit (by decide) rfl) .nil))

theorem keys_of_arg {a : Z80Arg} (ha : z80ArgOk a = true) {rest : List Str} (h : Z80ArgText value d v a rest) : Z80Keys value d v (z80Key a) rest := by
  cases h with
  | reg h | cond h | op h | vec h => exact .cons (.lit (by simpa [z80ArgOk] using ha) h) .nil
  | mem h => exact (Z80KeyText.lit (by simpa [z80ArgOk] using ha) h).paren
  | bit h | mode h =>
    simp only [z80ArgOk, Bool.and_eq_true, Option.isNone_iff_eq_none] at ha
    exact .cons (.lit ha.1 (by rw [h]; rfl)) .nil
  | zero => exact .cons (.lit (by decide) rfl) .nil
  | imm8 h h' => exact .cons (.n h h') .nil
  | imm16 h h' => exact .cons (.nn h h') .nil
  | mem16 h h' => exact (Z80KeyText.nn h h').paren
  | port h h' => exact (Z80KeyText.n h h').paren
  | rel h h' => exact .cons (.e h h') .nil
  | plus h h' h'' => exact (Z80KeyText.plus h h' h'').paren
  | minus h h' h'' => exact (Z80KeyText.minus h h' h'').paren

theorem args_of_keys : ∀ {as : List Z80Arg}, as.all z80ArgOk = true → ∀ {rest : List Str}, Z80Keys value d v (as.flatMap z80Key) rest →
    Z80ArgsText value d v as rest
  | [], _, _, h => by cases h; exact .nil
  | a :: as, ha, rest, h => by
    rw [List.flatMap_cons] at h
    obtain ⟨r, r', rfl, h1, h2⟩ := keys_split h
    simp only [List.all_cons, Bool.and_eq_true] at ha
    exact .cons (arg_of_keys ha.1 h1) (args_of_keys ha.2 h2)

theorem keys_of_args : ∀ {as : List Z80Arg}, as.all z80ArgOk = true → ∀ {rest : List Str}, Z80ArgsText value d v as rest →
    Z80Keys value d v (as.flatMap z80Key) rest
  | [], _, _, h => by cases h; exact .nil
  | a :: as, ha, rest, h => by
    cases h with
    | cons h1 h2 =>
      rw [List.flatMap_cons]
      simp only [List.all_cons, Bool.and_eq_true] at ha
      exact (keys_of_arg ha.1 h1).append (keys_of_args ha.2 h2)

end

/-! ## the bytes of a variant -/

/-- The bytes of a value. -/
def z80Bytes (h : Z80Hook) (v : Int) : Bytes :=
  match h with
  | .nn => [BitVec.ofInt 8 (v % 65536), BitVec.ofInt 8 (v % 65536 / 256)]
  | _ => [BitVec.ofInt 8 v]

/-- The text of a displacement, with its sign unless that is `+`. -/
def z80Signed (t : Str) : Str := if t[2]? = some '+' then t.drop 3 else t.drop 2

/-- How the value is read. -/
def z80Slot (h : Z80Hook) (pc : Int) (n : Nat) (t : Str) : M68Slot :=
  match h with
  | .nn => (.data, { label := t, size := 2, bitsSize := 16, offset := n }, false)
  | .n => (.data, { label := t, size := 1, bitsSize := 8, offset := n }, false)
  | .e => (.pc, { label := t, size := 1, bitsSize := 8, offset := n, relative := pc + n + 1 }, false)
  | .d => (.disp, { label := t, size := 1, bitsSize := 8, offset := n }, true)
  | .index => (.disp, { label := z80Signed t, size := 1, bitsSize := 8, offset := n }, true)

theorem z80Slot_ok (h : Z80Hook) {pc : Int} (hpc : 0 ≤ pc) (n : Nat) (t : Str) : SlotOk (z80Slot h pc n t) := by
  cases h <;> refine ⟨by simp [z80Slot], ?_⟩ <;> simp [z80Slot]
  omega

theorem pack_bind {f : H Int} {c : Ctx} {p : Int → Except Err Bytes} {q : Int → Bytes} (hp : ∀ v, p v = .ok (q v)) :
    (f >>= fun v => H.lift (p v)) c = (f >>= fun v => pure (q v)) c := by
  have : (fun v => H.lift (p v)) = fun v => (pure (q v) : H Bytes) := by
    funext v
    rw [hp]
    rfl
  rw [this]

theorem z80Build_eq {h : Z80Hook} {base : Bytes} {t : Str} {c : Ctx} (ht : h = .index → t[2]? = some '+' ∨ t[2]? = some '-') :
    z80Build h base t c = (H.parseIntegerOrLabel (z80Slot h c.pc base.length t).2.1 (z80Slot h c.pc base.length t).2.2 >>=
      fun v => pure (z80Bytes h v)) c := by
  have hb : ∀ v : Int, packByte [some v] = .ok [BitVec.ofInt 8 v] := fun v => packByte_ok [v]
  cases h with
  | nn => exact pack_bind packLe16u_one
  | n => exact pack_bind hb
  | e => exact pack_bind pack8s_one
  | d => exact pack_bind pack8s_one
  | index =>
    rcases ht rfl with ht | ht
    · simp only [z80Build, ht, z80Slot, z80Signed]
      exact pack_bind pack8s_one
    · simp only [z80Build, ht, z80Slot, z80Signed]
      exact pack_bind pack8s_one

/-- The bytes before the value. -/
def z80Lead (code : Nat) : Bytes :=
  if code ≤ 0xFF then [BitVec.ofInt 8 code] else [BitVec.ofInt 8 ((code / 256 : Nat) : Int), BitVec.ofInt 8 ((code % 256 : Nat) : Int)]

/-- The bytes after the value. -/
def z80Trail (codes : List Nat) : Bytes := codes.map fun (c : Nat) => BitVec.ofInt 8 (c : Int)

theorem z80Base_eq (code : Nat) : z80Base code = .ok (z80Lead code) := by
  have hb : ∀ v : Int, packByte [some v] = .ok [BitVec.ofInt 8 v] := fun v => packByte_ok [v]
  unfold z80Base z80Lead
  split
  · exact hb _
  · rw [hb, hb]; rfl

theorem z80Suffix_eq : ∀ (codes : List Nat) (base : Bytes), z80Suffix codes base = .ok (base ++ z80Trail codes)
  | [], base => by simp [z80Suffix, z80Trail]; rfl
  | s :: ss, base => by
    have hb : ∀ v : Int, packByte [some v] = .ok [BitVec.ofInt 8 v] := fun v => packByte_ok [v]
    have := z80Suffix_eq ss (base ++ [BitVec.ofInt 8 (s : Int)])
    simp only [z80Suffix, hb]
    exact this.trans (by simp [z80Trail])

theorem z80Emit_none {tokens : List Str} {codes : List Nat} {args : List String} {c : Ctx} (h : z80HookOf args 0 = none) :
    z80Emit tokens codes args c = (.ok (z80Lead (codes.headD 0) ++ z80Trail codes.tail), []) := by
  unfold z80Emit
  rw [z80Base_eq, h]
  show (H.lift _ : H Bytes) c = _
  rw [z80Suffix_eq]
  rfl

theorem z80Emit_some {tokens : List Str} {codes : List Nat} {args : List String} {c : Ctx} {hook : Z80Hook} {i : Nat} {t : Str}
    (h : z80HookOf args 0 = some (hook, i)) (ht : tokens.getD (i + 1) [] = t) (ht' : hook = .index → t[2]? = some '+' ∨ t[2]? = some '-')
    {v : Int} {rels : List Reloc}
    (hv : H.parseIntegerOrLabel (z80Slot hook c.pc (z80Lead (codes.headD 0)).length t).2.1 (z80Slot hook c.pc (z80Lead (codes.headD 0)).length t).2.2 c = (.ok v, rels)) :
    z80Emit tokens codes args c = (.ok (z80Lead (codes.headD 0) ++ z80Bytes hook v ++ z80Trail codes.tail), rels) := by
  unfold z80Emit
  rw [z80Base_eq, h]
  have e := z80Build_eq (base := z80Lead (codes.headD 0)) (c := c) ht'
  have e2 : z80Build hook (z80Lead (codes.headD 0)) t c = (.ok (z80Bytes hook v), rels) := by
    rw [e]
    exact lift_bind hv rfl
  rw [← ht] at e2
  exact lift_bind (g := fun b => (pure (z80Lead (codes.headD 0) ++ b) : H Bytes) >>= fun base => H.lift (z80Suffix codes.tail base))
    e2 (by rw [show ((pure (z80Lead (codes.headD 0) ++ z80Bytes hook v) : H Bytes) >>= fun base => H.lift (z80Suffix codes.tail base)) c =
      H.lift (z80Suffix codes.tail (z80Lead (codes.headD 0) ++ z80Bytes hook v)) c from rfl, z80Suffix_eq]; rfl)

/-- A variant with a value that gives bytes has read the value. -/
theorem z80Emit_ok {tokens : List Str} {codes : List Nat} {args : List String} {c : Ctx} {hook : Z80Hook} {i : Nat} {t : Str}
    (h : z80HookOf args 0 = some (hook, i)) (ht : tokens.getD (i + 1) [] = t) (ht' : hook = .index → t[2]? = some '+' ∨ t[2]? = some '-')
    {blob : Bytes} {rels : List Reloc} (he : z80Emit tokens codes args c = (.ok blob, rels)) :
    ∃ v, H.parseIntegerOrLabel (z80Slot hook c.pc (z80Lead (codes.headD 0)).length t).2.1 (z80Slot hook c.pc (z80Lead (codes.headD 0)).length t).2.2 c = (.ok v, rels) ∧
      blob = z80Lead (codes.headD 0) ++ z80Bytes hook v ++ z80Trail codes.tail := by
  have key : ∃ v rels', H.parseIntegerOrLabel (z80Slot hook c.pc (z80Lead (codes.headD 0)).length t).2.1 (z80Slot hook c.pc (z80Lead (codes.headD 0)).length t).2.2 c = (.ok v, rels') := by
    unfold z80Emit at he
    rw [z80Base_eq, h] at he
    obtain ⟨b, r, r', h1, h2, -⟩ := H.bind_ok he
    obtain ⟨b', r1, r1', h5, h4, -⟩ := H.bind_ok (show (_ >>= _ : H Bytes) c = _ from h2)
    have hb : b = z80Lead (codes.headD 0) := by
      have := h1
      rw [H.lift_apply] at this
      simp only [Prod.mk.injEq, Except.ok.injEq] at this
      exact this.1.symm
    subst hb
    rw [ht, z80Build_eq ht'] at h5
    obtain ⟨v, r3, r3', h6, -, -⟩ := H.bind_ok h5
    exact ⟨v, r3, h6⟩
  obtain ⟨v, rels', hv⟩ := key
  have := z80Emit_some h ht ht' hv
  rw [this] at he
  simp only [Prod.mk.injEq, Except.ok.injEq] at he
  obtain ⟨rfl, rfl⟩ := he
  exact ⟨v, hv, rfl⟩

end Necro
