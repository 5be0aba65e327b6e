import Verif.Lemmas.Z80
/-!
# The variant of a line of Z80 assembly, and what its bytes decode to
-/

namespace Necro
open Spec

/-! ## decoding -/

theorem lead_byte {c k : Nat} (h : c = k) (hk : k < 256) : BitVec.ofInt 8 ((c : Nat) : Int) = BitVec.ofNat 8 k := by
  subst h
  rw [BitVec.ofInt_natCast]

theorem ofInt_toNat (c : Nat) : (BitVec.ofInt 8 ((c : Nat) : Int)).toNat = c % 256 := by
  rw [BitVec.ofInt_natCast, BitVec.toNat_ofNat]

theorem ofInt_ne {c k : Nat} (hc : c < 256) (hk : k < 256) (h : c ≠ k) : BitVec.ofInt 8 ((c : Nat) : Int) ≠ BitVec.ofNat 8 k := by
  intro e
  have := congrArg BitVec.toNat e
  rw [ofInt_toNat, BitVec.toNat_ofNat] at this
  omega

theorem decode_row {codes : List Nat} {p : String × List Z80Arg} (h : z80RowShape codes = some p) {data : Bytes}
    (hd : codes.length = 1 ∨ data.length = 1) : decodeZ80 (z80Lead (codes.headD 0) ++ data ++ z80Trail codes.tail) = z80Fill p data := by
  unfold z80RowShape at h
  split at h
  · next c =>
    have hcm : c % 256 < 256 := Nat.mod_lt _ (by decide)
    simp only [List.headD_cons, List.tail_cons, z80Trail, List.map_nil, List.append_nil]
    split at h
    · next h0 =>
      have hc : c < 256 := by omega
      split at h
      · cases h
      · next hn =>
        have h1 : ¬ BitVec.ofInt 8 (c : Int) = (0xCB : BitVec 8) := ofInt_ne (k := 0xCB) hc (by decide) (fun e => hn (.inl e))
        have h2 : ¬ BitVec.ofInt 8 (c : Int) = (0xED : BitVec 8) := ofInt_ne (k := 0xED) hc (by decide) (fun e => hn (.inr (.inl e)))
        have h3 : ¬ BitVec.ofInt 8 (c : Int) = (0xDD : BitVec 8) := ofInt_ne (k := 0xDD) hc (by decide) (fun e => hn (.inr (.inr (.inl e))))
        have h4 : ¬ BitVec.ofInt 8 (c : Int) = (0xFD : BitVec 8) := ofInt_ne (k := 0xFD) hc (by decide) (fun e => hn (.inr (.inr (.inr e))))
        rw [z80Lead, if_pos (by omega)]
        simp only [List.cons_append, List.nil_append, decodeZ80]
        rw [if_neg h1, if_neg h2, if_neg (fun e => e.elim h3 h4), ofInt_toNat, Nat.mod_eq_of_lt hc, h]
        rfl
    · next h0 =>
      rw [z80Lead, if_neg (by omega), lead_byte h0 (by decide)]
      simp only [List.cons_append, List.nil_append, decodeZ80]
      rw [if_pos (by rfl), ofInt_toNat, Nat.mod_mod, h]
      rfl
    · next h0 =>
      rw [z80Lead, if_neg (by omega), lead_byte h0 (by decide)]
      simp only [List.cons_append, List.nil_append, decodeZ80]
      rw [if_neg (by decide), if_pos (by rfl), ofInt_toNat, Nat.mod_mod, h]
      rfl
    · next h0 =>
      split at h
      · cases h
      · next hn =>
        rw [z80Lead, if_neg (by omega), lead_byte h0 (by decide)]
        simp only [List.cons_append, List.nil_append, decodeZ80]
        rw [if_neg (by decide), if_neg (by decide), if_pos (.inl rfl), if_neg (show ¬ BitVec.ofInt 8 ((c % 256 : Nat) : Int) = (0xCB : BitVec 8) from ofInt_ne (k := 0xCB) hcm (by decide) hn), ofInt_toNat, Nat.mod_mod]
        show (z80ShapeIndex false _).bind _ = _
        rw [h]
        rfl
    · next h0 =>
      split at h
      · cases h
      · next hn =>
        rw [z80Lead, if_neg (by omega), lead_byte h0 (by decide)]
        simp only [List.cons_append, List.nil_append, decodeZ80]
        rw [if_neg (by decide), if_neg (by decide), if_pos (.inr rfl), if_neg (show ¬ BitVec.ofInt 8 ((c % 256 : Nat) : Int) = (0xCB : BitVec 8) from ofInt_ne (k := 0xCB) hcm (by decide) hn), ofInt_toNat, Nat.mod_mod]
        show (z80ShapeIndex true _).bind _ = _
        rw [h]
        rfl
    · cases h
  · next o =>
    split at h
    · next ho =>
      rcases hd with hd | hd
      · simp at hd
      · match data, hd with
        | [d], _ =>
          have hl : z80Lead 0xDDCB = [0xDD, 0xCB] := by decide
          simp only [List.headD_cons, hl]
          show (z80ShapeIndexCb false (BitVec.ofInt 8 (o : Int)).toNat).bind _ = _
          rw [ofInt_toNat, Nat.mod_eq_of_lt ho, h]
          rfl
    · cases h
  · next o =>
    split at h
    · next ho =>
      rcases hd with hd | hd
      · simp at hd
      · match data, hd with
        | [d], _ =>
          have hl : z80Lead 0xFDCB = [0xFD, 0xCB] := by decide
          simp only [List.headD_cons, hl]
          show (z80ShapeIndexCb true (BitVec.ofInt 8 (o : Int)).toNat).bind _ = _
          rw [ofInt_toNat, Nat.mod_eq_of_lt ho, h]
          rfl
    · cases h
  · cases h

/-- What the value of a line is in the decoded instruction. -/
def z80Means (hook : Z80Hook) (v d w : Int) : Prop :=
  match hook with
  | .nn => w = v % 65536
  | .n => w = v % 256
  | .e => w % 256 = v % 256
  | .index => d % 256 = v % 256
  | .d => False

theorem fill_value {hook : Z80Hook} {p : String × List Z80Arg} (h : z80HookOk (some hook) p.2 = true) (v : Int) :
    ∃ d w, z80Fill p (z80Bytes hook v) = some ⟨p.1, p.2, d, w⟩ ∧ z80Means hook v d w := by
  unfold z80HookOk at h
  cases hook with
  | d => cases h
  | nn =>
    simp only [Bool.and_eq_true, Bool.not_eq_true', beq_iff_eq] at h
    refine ⟨0, _, by unfold z80Fill; rw [h.1, h.2]; rfl, ?_⟩
    have h1 := byte_toNat (v % 65536)
    have h2 := byte_toNat (v % 65536 / 256)
    simp only [z80Means]
    omega
  | n =>
    simp only [Bool.and_eq_true, Bool.not_eq_true', beq_iff_eq] at h
    exact ⟨0, _, by unfold z80Fill; rw [h.1, h.2]; rfl, byte_toNat v⟩
  | e =>
    simp only [Bool.and_eq_true, Bool.not_eq_true', beq_iff_eq] at h
    exact ⟨0, _, by unfold z80Fill; rw [h.1, h.2]; rfl, byte_toInt v⟩
  | index =>
    simp only [Bool.and_eq_true, beq_iff_eq] at h
    exact ⟨_, 0, by unfold z80Fill; rw [h.1, h.2]; rfl, byte_toInt v⟩

theorem fill_none {p : String × List Z80Arg} (h : z80HookOk none p.2 = true) : z80Fill p [] = some ⟨p.1, p.2, 0, 0⟩ := by
  simp only [z80HookOk, Bool.and_eq_true, Bool.not_eq_true', beq_iff_eq] at h
  unfold z80Fill
  rw [h.1, h.2]

/-! ## the place of the value -/

theorem hookOf_none : ∀ {args : List String} {k : Nat}, z80HookOf args k = none → ∀ b ∈ args, z80Hook b = none
  | [], _, _, b, hb => by cases hb
  | a :: as, k, h, b, hb => by
    unfold z80HookOf at h
    split at h
    · cases h
    · next h' =>
      rcases List.mem_cons.1 hb with rfl | hb
      · simpa using h
      · exact hookOf_none h' b hb

theorem hookOf_some : ∀ {args : List String} {k i : Nat} {h : Z80Hook}, z80HookOf args k = some (h, i) →
    ∃ pre a post, args = pre ++ a :: post ∧ i = k + pre.length ∧ z80Hook a = some h ∧ ∀ b ∈ post, z80Hook b = none
  | [], _, _, _, h => by cases h
  | a :: as, k, i, hk, h => by
    unfold z80HookOf at h
    split at h
    · next h' =>
      have : z80HookOf as (k + 1) = some (hk, i) := h'.trans h
      obtain ⟨pre, a', post, rfl, rfl, h2, h3⟩ := hookOf_some this
      exact ⟨a :: pre, a', post, rfl, by simp; omega, h2, h3⟩
    · next h' =>
      simp only [Option.map_eq_some_iff, Prod.mk.injEq] at h
      obtain ⟨_, h1, rfl, rfl⟩ := h
      exact ⟨[], a, as, rfl, by simp, h1, hookOf_none h'⟩

theorem one_hook {pre post : List String} {a : String} {h : Z80Hook} (ha : z80Hook a = some h)
    (hl : ((pre ++ a :: post).filter fun a => (z80Hook a).isSome).length ≤ 1) : ∀ b ∈ pre, z80Hook b = none := by
  intro b hb
  rw [List.filter_append, List.filter_cons, if_pos (by rw [ha]; rfl), List.length_append, List.length_cons] at hl
  have h0 : (pre.filter fun a => (z80Hook a).isSome) = [] := List.eq_nil_of_length_eq_zero (by omega)
  have := List.filter_eq_nil_iff.1 h0 b hb
  simpa using this

theorem match_split : ∀ {ps qs : List Pat} {rest : List Str}, matchUtil rest (ps ++ qs) = true →
    ∃ r r', rest = r ++ r' ∧ matchUtil r ps = true ∧ matchUtil r' qs = true
  | [], _, rest, h => ⟨[], rest, rfl, rfl, h⟩
  | p :: ps, qs, [], h => by cases h
  | p :: ps, qs, t :: rest, h => by
    simp only [List.cons_append, matchUtil, Bool.and_eq_true] at h
    obtain ⟨r, r', rfl, h1, h2⟩ := match_split h.2
    exact ⟨t :: r, r', rfl, by simp only [matchUtil, Bool.and_eq_true]; exact ⟨h.1, h1⟩, h2⟩

theorem match_length : ∀ {ps : List Pat} {rest : List Str}, matchUtil rest ps = true → rest.length = ps.length
  | [], [], _ => rfl
  | [], _ :: _, h => by cases h
  | _ :: _, [], h => by cases h
  | p :: ps, t :: rest, h => by
    simp only [matchUtil, Bool.and_eq_true] at h
    simp [match_length h.2]

theorem pat_lit {a : String} (h : z80Hook a = none) : z80Pat a = .str a.toList := by
  unfold z80Hook at h
  unfold z80Pat
  repeat' split at h <;> try cases h
  next h1 h2 h3 h4 h5 =>
  rw [if_neg (by simp [h1, h2, h3, h4]), if_neg (fun e => h5 (.inl e)), if_neg (fun e => h5 (.inr e))]

theorem keys_of_lits {value : M68Use → Nat → Str → Int → Prop} {d v : Int} : ∀ {ks : List String} {r : List Str}, (∀ b ∈ ks, z80Hook b = none) →
    matchUtil r (ks.map z80Pat) = true → Z80Keys value d v ks r
  | [], [], _, _ => .nil
  | [], _ :: _, _, h => by cases h
  | _ :: _, [], _, h => by cases h
  | k :: ks, t :: r, hk, h => by
    simp only [List.map_cons, matchUtil, Bool.and_eq_true] at h
    have hk' := hk k (List.mem_cons_self ..)
    rw [pat_lit hk'] at h
    exact .cons (.lit hk' (show upper t = upper k.toList by simpa [Pat.matches₀] using h.1)) (keys_of_lits (fun b hb => hk b (List.mem_cons_of_mem _ hb)) h.2)

/-! ## index operands -/

theorem index_split {r t : Str} (hr : r.length = 2) (h : z80IsIndex r t = true) :
    ∃ p s q, t = p ++ s :: q ∧ upper p = r ∧ (s = '+' ∨ s = '-') ∧ t[2]? = some s := by
  have key : ∀ s : Char, s.isLower = false → s.toLower = s → (r ++ [s]).isPrefixOf (upper t) = true → ∃ p q, t = p ++ s :: q ∧ upper p = r ∧ t[2]? = some s := by
    intro s hs hs' h
    match r, hr with
    | [a, b], _ =>
      match t with
      | [] => simp [upper] at h
      | [_] => simp [upper] at h
      | [_, _] => simp [upper] at h
      | x :: y :: z :: q =>
        simp only [upper, List.map_cons, List.cons_append, List.nil_append, List.isPrefixOf, Bool.and_eq_true, beq_iff_eq] at h
        have hz : z = s := by
          rcases toUpper_eq hs h.2.2.1.symm with e | e
          · exact e
          · rw [e, hs']
        exact ⟨[x, y], q, by rw [hz]; rfl, by simp [upper, ← h.1, ← h.2.1], by simp [hz]⟩
  unfold z80IsIndex at h
  rw [Bool.or_eq_true] at h
  rcases h with h | h
  · obtain ⟨p, q, h1, h2, h3⟩ := key '+' (by decide) (by decide) h
    exact ⟨p, '+', q, h1, h2, .inl rfl, h3⟩
  · obtain ⟨p, q, h1, h2, h3⟩ := key '-' (by decide) (by decide) h
    exact ⟨p, '-', q, h1, h2, .inr rfl, h3⟩

theorem hook_pat {a : String} {hook : Z80Hook} (h : z80Hook a = some hook) :
    (hook ≠ .index ∧ z80Pat a = .pred z80IsValue) ∨
      (hook = .index ∧ ∃ iy : Bool, a = (if iy then "IY+d" else "IX+d") ∧ z80Pat a = .pred (z80IsIndex (if iy then "IY" else "IX").toList)) := by
  unfold z80Hook at h
  split at h
  · next e => cases h; subst e; exact .inl ⟨by decide, by rfl⟩
  split at h
  · next e => cases h; subst e; exact .inl ⟨by decide, by rfl⟩
  split at h
  · next e => cases h; subst e; exact .inl ⟨by decide, by rfl⟩
  split at h
  · next e => cases h; subst e; exact .inl ⟨by decide, by rfl⟩
  split at h
  · next e =>
    cases h
    rcases e with e | e
    · subst e; exact .inr ⟨rfl, false, rfl, by rfl⟩
    · subst e; exact .inr ⟨rfl, true, rfl, by rfl⟩
  · cases h

theorem index_text {a : String} {t : Str} (h : z80Hook a = some .index) (ht : (z80Pat a).matches₀ t = true) :
    ∃ (iy : Bool) (p : Str) (s : Char) (q : Str), a = (if iy then "IY+d" else "IX+d") ∧ t = p ++ s :: q ∧ eqNoCase p (if iy then "IY" else "IX").toList ∧
      (s = '+' ∨ s = '-') ∧ t[2]? = some s := by
  rcases hook_pat h with ⟨h, -⟩ | ⟨-, iy, h1, h2⟩
  · exact absurd rfl h
  · rw [h2] at ht
    have ht : z80IsIndex (if iy then "IY" else "IX").toList t = true := ht
    obtain ⟨p, s, q, h3, h4, h5, h6⟩ := index_split (by cases iy <;> decide) ht
    refine ⟨iy, p, s, q, h1, h3, ?_, h5, h6⟩
    rw [← h4]
    exact (upper_idem p).symm

theorem index_third {a : String} {hook : Z80Hook} {t : Str} (h : z80Hook a = some hook) (ht : (z80Pat a).matches₀ t = true) :
    hook = .index → t[2]? = some '+' ∨ t[2]? = some '-' := by
  rintro rfl
  obtain ⟨iy, p, s, q, -, -, -, h5 | h5, h6⟩ := index_text h ht
  · exact .inl (h5 ▸ h6)
  · exact .inr (h5 ▸ h6)

theorem key_value {value : M68Use → Nat → Str → Int → Prop} {a : String} {hook : Z80Hook} {t : Str} (h : z80Hook a = some hook)
    (ht : (z80Pat a).matches₀ t = true) {pc : Int} {n : Nat} {x v d w : Int}
    (hx : value (z80Slot hook pc n t).1 (z80Slot hook pc n t).2.1.bitsSize (z80Slot hook pc n t).2.1.label x)
    (hv : v % 2 ^ (z80Slot hook pc n t).2.1.bitsSize = x % 2 ^ (z80Slot hook pc n t).2.1.bitsSize) (hm : z80Means hook v d w) :
    Z80KeyText value d w a t := by
  cases hook with
  | d => cases hm
  | nn =>
    have : a = "nn" := by
      unfold z80Hook at h
      repeat' split at h <;> try cases h
      assumption
    subst this
    exact .nn hx (by simp only [z80Means] at hm; rw [hm]; exact hv)
  | n =>
    have : a = "n" := by
      unfold z80Hook at h
      repeat' split at h <;> try cases h
      assumption
    subst this
    exact .n hx (by simp only [z80Means] at hm; rw [hm]; exact hv)
  | e =>
    have : a = "e" := by
      unfold z80Hook at h
      repeat' split at h <;> try cases h
      assumption
    subst this
    exact .e hx (by simp only [z80Means] at hm; rw [hm]; exact hv)
  | index =>
    obtain ⟨iy, p, s, q, rfl, h2, h3, h4, h5⟩ := index_text h ht
    simp only [z80Means] at hm
    have hp : p.length = 2 := by
      have := congrArg List.length (show p.map Char.toUpper = _ from h3)
      rw [List.length_map] at this
      rw [this]
      cases iy <;> rfl
    have hs : z80Signed t = if s = '+' then q else s :: q := by
      unfold z80Signed
      rw [h5, h2]
      match p, hp with
      | [a, b], _ =>
        rcases h4 with rfl | rfl
        · rfl
        · rfl
    rw [show (z80Slot .index pc n t).2.1.label = z80Signed t from rfl, hs] at hx
    subst h2
    rcases h4 with rfl | rfl
    · exact .plus h3 hx (hm.trans hv)
    · exact .minus h3 hx (hm.trans hv)

/-! ## lines -/

theorem variants_row {key : Str} {codes : List Nat} {args : List String} (h : (codes, args) ∈ z80Variants key) :
    ∃ r ∈ z80Table, r.1 = codes ∧ r.2.2 = args ∧ r.2.1.toList = key := by
  unfold z80Variants at h
  obtain ⟨r, hr, e⟩ := List.mem_map.1 h
  rw [List.mem_filter] at hr
  simp only [Prod.mk.injEq] at e
  exact ⟨r, hr.1, e.1, e.2, by simpa using hr.2⟩

theorem z80Call_ok {tokens : List Str} {c : Ctx} {blob : Bytes} {rels : List Reloc} : ∀ {vs : List (List Nat × List String)},
    z80Call tokens vs c = (.ok (some blob), rels) → ∃ v ∈ vs, matchUtil (tokens.drop 1) (v.2.map z80Pat) = true ∧ z80Emit tokens v.1 v.2 c = (.ok blob, rels)
  | [], h => by cases h
  | (codes, args) :: vs, h => by
    unfold z80Call at h
    split at h
    · next hm =>
      obtain ⟨b, r, r', h1, h2, rfl⟩ := H.bind_ok h
      rw [H.pure_apply] at h2
      simp only [Prod.mk.injEq, Except.ok.injEq, Option.some.injEq] at h2
      obtain ⟨rfl, rfl⟩ := h2
      exact ⟨_, List.mem_cons_self .., hm, by rw [List.append_nil]; exact h1⟩
    · obtain ⟨v, hv, h1⟩ := z80Call_ok h
      exact ⟨v, List.mem_cons_of_mem _ hv, h1⟩

theorem z80_handler {t : Str} {i : InstrDef} (h : z80.instrs (z80.key t) = some i) : i = .handler fun tokens => z80Call tokens (z80Variants (z80.key t)) := by
  have h' : (match z80Variants (z80.key t) with
      | [] => none
      | vs => some (InstrDef.handler fun tokens => z80Call tokens vs)) = some i := h
  cases hc : z80Variants (z80.key t) with
  | nil => rw [hc] at h'; cases h'
  | cons a l => rw [hc] at h'; cases h'; rfl

/-- A line that gives bytes does so by a row of the table. -/
theorem z80_row {c : Ctx} {t : Str} {rest : List Str} {blob : Bytes} {rels : List Reloc} (h : Emits z80 c t rest blob rels) :
    ∃ r ∈ z80Table, eqNoCase t r.2.1.toList ∧ matchUtil rest (r.2.2.map z80Pat) = true ∧ z80Emit (t :: rest) r.1 r.2.2 c = (.ok blob, rels) := by
  cases h with
  | fixed h => exact absurd (z80_handler h) (by simp)
  | handler h hf =>
    have e := z80_handler h
    cases e
    obtain ⟨v, hv, h1, h2⟩ := z80Call_ok hf
    obtain ⟨r, hr, h3, h4, h5⟩ := variants_row hv
    refine ⟨r, hr, ?_, by rw [h4]; exact h1, by rw [h3, h4]; exact h2⟩
    have : upper t = r.2.1.toList := h5.symm
    rw [← this]
    exact (upper_idem t).symm

/-- The rows that are not instructions match only the lines set aside. -/
theorem z80_odd_row {t : Str} {rest : List Str} {r : List Nat × String × List String} (hr : r ∈ z80OddRows) (ht : eqNoCase t r.2.1.toList)
    (hm : matchUtil rest (r.2.2.map z80Pat) = true) : Z80Odd t rest := by
  have store : ∀ iy : Bool, matchUtil rest (["(", if iy then "IY+d" else "IX+d", ")", "n"].map z80Pat) = true → eqNoCase t "LD".toList → Z80Odd t rest := by
    intro iy hm ht
    have hl := match_length hm
    match rest, hl with
    | [a, b, e, n], _ =>
      simp only [List.map_cons, List.map_nil, matchUtil, Bool.and_eq_true] at hm
      obtain ⟨h1, h2, h3, h4, -⟩ := hm
      rw [pat_lit (by decide)] at h1 h3
      have h1 : eqNoCase a "(".toList := show upper a = upper "(".toList by simpa [Pat.matches₀] using h1
      have h3 : eqNoCase e ")".toList := show upper e = upper ")".toList by simpa [Pat.matches₀] using h3
      have h4 : z80IsValue n = true := h4
      obtain ⟨iy', p, s, q, -, rfl, h5, h6, -⟩ := index_text (a := if iy then "IY+d" else "IX+d") (by cases iy <;> rfl) h2
      refine .store ht (by rw [paren_eq h1, paren_eq' h3]) ⟨by cases iy' <;> simp_all, h6⟩ ?_
      intro r hr he
      have hall : ∀ r ∈ ["A", "B", "C", "D", "E", "H", "L"], z80Regs.contains (upper r.toList) = true := by decide
      unfold z80IsValue at h4
      rw [show upper n = upper r.toList from he, hall r hr] at h4
      cases h4
  simp only [z80OddRows, List.mem_cons, List.not_mem_nil, or_false] at hr
  rcases hr with rfl | rfl | rfl
  · exact store false hm ht
  · exact store true hm ht
  · exact .flags ht (by rw [match_length hm]; rfl)

/-- What a line of Z80 assembly is: an instruction without a value, or one whose value is read from one of the tokens. -/
inductive Z80Line (c : Ctx) (t : Str) (rest : List Str) (blob : Bytes) (rels : List Reloc) : Prop
  | plain {i : Z80Instr} : rels = [] → decodeZ80 blob = some i → (∀ value, Z80Written value t rest i) → Z80Line c t rest blob rels
  | value {hook : Z80Hook} {tok : Str} {lead trail : Bytes} {v : Int} {p : String × List Z80Arg} :
      lead ≠ [] → (hook = .nn ∨ hook = .e → trail = []) → (hook = .e → lead.length = 1) →
      H.parseIntegerOrLabel (z80Slot hook c.pc lead.length tok).2.1 (z80Slot hook c.pc lead.length tok).2.2 c = (.ok v, rels) →
      blob = lead ++ z80Bytes hook v ++ trail → z80HookOk (some hook) p.2 = true →
      (∀ v', ∃ d w, decodeZ80 (lead ++ z80Bytes hook v' ++ trail) = some ⟨p.1, p.2, d, w⟩ ∧ z80Means hook v' d w ∧
        ∀ (value : M68Use → Nat → Str → Int → Prop) x,
          value (z80Slot hook c.pc lead.length tok).1 (z80Slot hook c.pc lead.length tok).2.1.bitsSize (z80Slot hook c.pc lead.length tok).2.1.label x →
          v' % 2 ^ (z80Slot hook c.pc lead.length tok).2.1.bitsSize = x % 2 ^ (z80Slot hook c.pc lead.length tok).2.1.bitsSize →
          Z80Written value t rest ⟨p.1, p.2, d, w⟩) → Z80Line c t rest blob rels

theorem lead_ne (n : Nat) : z80Lead n ≠ [] := by unfold z80Lead; split <;> simp

/-- The parts of a row that is an instruction. -/
theorem rowOk_parts {r : List Nat × String × List String} (h : z80RowOk r = true) :
    ∃ as, z80RowShape r.1 = some (r.2.1, as) ∧ as.flatMap z80Key = r.2.2 ∧ as.all z80ArgOk = true ∧
      z80HookOk ((z80HookOf r.2.2 0).map (·.1)) as = true ∧ (r.2.2.filter fun a => (z80Hook a).isSome).length ≤ 1 ∧
      (r.1.length = 1 ∨ (z80HookOf r.2.2 0).map (·.1) = some .index) ∧ ((z80HookOf r.2.2 0).map (·.1) = some .e → r.1.headD 0 ≤ 0xFF) := by
  unfold z80RowOk at h
  split at h
  · cases h
  · next m as h0 =>
    simp only [Bool.and_eq_true, beq_iff_eq, decide_eq_true_eq, Bool.or_eq_true] at h
    obtain ⟨⟨⟨⟨⟨⟨rfl, h2⟩, h3⟩, h4⟩, h5⟩, h6⟩, h7⟩ := h
    refine ⟨as, h0, h2, h3, h4, h5, h6, fun e => ?_⟩
    rcases h7 with h7 | h7
    · rw [e] at h7; exact absurd h7 (by decide)
    · exact h7

theorem row_line {c : Ctx} {t : Str} {rest : List Str} {blob : Bytes} {rels : List Reloc} {r : List Nat × String × List String} (hr : z80RowOk r = true)
    (ht : eqNoCase t r.2.1.toList) (hm : matchUtil rest (r.2.2.map z80Pat) = true) (he : z80Emit (t :: rest) r.1 r.2.2 c = (.ok blob, rels)) :
    Z80Line c t rest blob rels := by
  obtain ⟨as, h1, h2, h3, h4, h5, h6, h6e⟩ := rowOk_parts hr
  cases hh : z80HookOf r.2.2 0 with
  | none =>
    rw [hh] at h4 h6
    rw [z80Emit_none hh] at he
    simp only [Prod.mk.injEq, Except.ok.injEq] at he
    obtain ⟨rfl, rfl⟩ := he
    have h6 : r.1.length = 1 := by simpa using h6
    refine .plain rfl (i := ⟨r.2.1, as, 0, 0⟩) ?_ fun value => ⟨ht, args_of_keys h3 ?_⟩
    · have := decode_row h1 (data := []) (.inl h6)
      rw [List.append_nil] at this
      rw [this]
      exact fill_none h4
    · rw [h2]
      exact keys_of_lits (hookOf_none hh) hm
  | some p =>
    obtain ⟨hook, i⟩ := p
    rw [hh] at h4
    obtain ⟨pre, a, post, h7, h8, h9, h10⟩ := hookOf_some hh
    rw [Nat.zero_add] at h8
    have h11 := one_hook h9 (by rw [← h7]; exact h5)
    rw [h7, List.map_append, List.map_cons] at hm
    obtain ⟨r1, r2, rfl, hm1, hm2⟩ := match_split hm
    cases r2 with
    | nil => cases hm2
    | cons tok r2 =>
      simp only [matchUtil, Bool.and_eq_true] at hm2
      have hlen : r1.length = i := by rw [h8, match_length hm1, List.length_map]
      have htok : (t :: (r1 ++ tok :: r2)).getD (i + 1) [] = tok := by
        rw [← hlen]
        simp
      obtain ⟨v, hv, hb⟩ := z80Emit_ok hh htok (index_third h9 hm2.1) he
      rw [hh] at h6 h6e
      have hlen1 : r.1.length = 1 ∨ hook = .index := by simpa using h6
      refine .value (lead_ne _) ?_ ?_ hv hb (p := (r.2.1, as)) h4 fun v' => ?_
      · intro hi
        rcases hlen1 with h | rfl
        · match hc : r.1, h with
          | [c], _ => rfl
        · simp at hi
      · rintro rfl
        have := h6e rfl
        unfold z80Lead
        rw [if_pos this]
        rfl
      · have hd := decode_row h1 (data := z80Bytes hook v') (by
          rcases hlen1 with h | rfl
          · exact .inl h
          · exact .inr rfl)
        obtain ⟨d, w, hf, hme⟩ := fill_value (p := (r.2.1, as)) h4 v'
        refine ⟨d, w, hd.trans hf, hme, fun value x hx hx' => ⟨ht, args_of_keys h3 ?_⟩⟩
        rw [h2, h7]
        exact (keys_of_lits h11 hm1).append (.cons (key_value h9 hm2.1 hx hx' hme) (keys_of_lits h10 hm2.2))

end Necro
