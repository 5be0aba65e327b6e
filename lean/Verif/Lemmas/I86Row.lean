import Verif.Lemmas.I86Enc
/-!
# The rows of the 8086 table
-/

namespace Necro
open Spec

/-- The operands of a row, one after the other. -/
inductive I86Encs (c : Ctx) : I86Modrm → Bool → List I86Arg → List Str → List M68Slot → List Int → Bytes → Prop
  | nil {m late} : I86Encs c m late [] [] [] [] []
  | cons {m late a as ts us s s' v v' b b' m'} : I86Enc c m late a ts s v b m' → I86Encs c m' true as us s' v' b' →
      I86Encs c m late (a :: as) (ts ++ us) (s ++ s') (v ++ v') (b ++ b')

theorem I86Enc.ne_nil {c : Ctx} {m m' : I86Modrm} {late : Bool} {a : I86Arg} {ts : List Str} {s : List M68Slot} {v : List Int} {b : Bytes}
    (h : I86Enc c m late a ts s v b m') : 1 ≤ ts.length := by cases h <;> simp

/-- `_I0` stands alone. -/
def argsOk (args : List I86Arg) : Bool := args.all I86Arg.ok && (decide (I86Arg.i0 ∉ args) || decide (args = [.i0]))

theorem args_enc {tokens : List Str} (hlen : 2 ≤ tokens.length) {c : Ctx} : ∀ {as : List I86Arg} {index : Nat} {m : I86Modrm} {blob full : Bytes} {rels : List Reloc},
    as.all I86Arg.ok = true → (1 < index → I86Arg.i0 ∉ as) → (I86Arg.i0 ∈ as → as = [.i0]) → 1 ≤ index → m.Ok →
    i86Args tokens as index m blob c = (.ok (some full), rels) →
    ∃ ts us s v b, tokens.drop index = ts ++ us ∧ full = blob ++ b ∧ I86Encs c m (decide (1 < index)) as ts s v b ∧ I86Reads c s v rels ∧
      (I86Arg.i0 ∈ as → us = [])
  | [], index, m, blob, full, rels, _, _, _, _, _, h => by
    simp only [i86Args] at h
    cases h
    exact ⟨[], tokens.drop index, [], [], [], by simp, by simp, .nil, .nil, by simp⟩
  | a :: as, index, m, blob, full, rels, hok, hi, hi', h1, hm, h => by
    simp only [i86Args] at h
    obtain ⟨⟨r, m'⟩, r1, r2, h2, h3, rfl⟩ := H.bind_ok h
    cases r with
    | none => cases h3
    | some q =>
      obtain ⟨delta, b⟩ := q
      simp only at h3
      simp only [List.all_cons, Bool.and_eq_true] at hok
      have hix : a = .i0 → index = 1 := by
        rintro rfl
        by_cases hc : 1 < index
        · exact absurd (List.mem_cons_self ..) (hi hc)
        · omega
      obtain ⟨ts, us, s, v, h4, rfl, h5, h6, h7, h8⟩ := run_enc hok.1 hm hlen hix h2
      have hne := h5.ne_nil
      rw [if_neg (by omega)] at h3
      have hno : I86Arg.i0 ∉ as := by
        intro hmem
        have := hi' (List.mem_cons_of_mem _ hmem)
        simp only [List.cons.injEq] at this
        rw [this.2] at hmem
        cases hmem
      obtain ⟨ts', us', s', v', b', h9, rfl, h10, h11, -⟩ := args_enc hlen hok.2 (fun _ => hno) (fun h => absurd h hno) (by omega) h7 h3
      refine ⟨ts ++ ts', us', s ++ s', v ++ v', b ++ b', ?_, by rw [List.append_assoc], .cons h5 ?_, h6.append h11, ?_⟩
      · rw [h4, List.append_assoc]
        congr 1
        rw [← h9, ← List.drop_drop, h4]
        simp
      · rwa [show decide (1 < index + ts.length) = true by simp; omega] at h10
      · intro hmem
        rcases List.mem_cons.1 hmem with e | e
        · have h12 := h8 e.symm
          subst h12
          have : tokens.drop (index + ts.length) = [] := by rw [← List.drop_drop, h4]; simp
          rw [this] at h9
          exact (List.append_eq_nil_iff.1 h9.symm).2
        · exact absurd e hno

/-- What one row does. -/
def rowRun (tokens : List Str) (base : Nat) (args : List I86Arg) : H (Option Bytes) := do
  let m : I86Modrm := if 0xFF < base then { reg := some (base % 256) } else {}
  let base := if 0xFF < base then base / 256 else base
  if args = [] then
    if tokens.length = 1 then do
      let b ← H.lift (packByte [some (base : Int)])
      pure (some b)
    else H.throw .invalidOpCodeArguments
  else if tokens.length < 2 then pure none
  else
    match ← i86Args tokens args 1 m [] with
    | none => pure none
    | some full => do
      let b ← H.lift (packByte [some (base : Int)])
      pure (some (b ++ full))

theorem call_cons {tokens : List Str} {base : Nat} {args : List I86Arg} {conds : List (Nat × List I86Arg)} {c : Ctx} :
    i86Call tokens ((base, args) :: conds) c = (rowRun tokens base args >>= fun r =>
      match r with
      | none => i86Call tokens conds
      | some b => pure (some b)) c := by
  conv => lhs; unfold i86Call
  unfold rowRun
  simp only
  by_cases h1 : args = []
  · rw [if_pos h1, if_pos h1]
    by_cases h2 : tokens.length = 1
    · rw [if_pos h2, byte1]
      rfl
    · rw [if_neg h2]
      rfl
  · rw [if_neg h1, if_neg h1]
    by_cases h2 : tokens.length < 2
    · rw [if_pos h2, if_pos h2, H.bind_run (H.pure_apply _ _)]
    · rw [if_neg h2, if_neg h2]
      obtain ⟨k, hk⟩ : ∃ k, packByte [some ((if 255 < base then base / 256 else base : Nat) : Int)] = .ok k := ⟨_, byte1 _⟩
      simp only [hk]
      cases h3 : i86Args tokens args 1 (if 0xFF < base then { reg := some (base % 256) } else {}) [] c with
      | mk r rels =>
        cases r with
        | error e =>
          rw [H.bind_error h3, H.bind_error (H.bind_error h3)]
        | ok o =>
          cases o with
          | none =>
            cases hx : i86Call tokens conds c with
            | mk x r' =>
              refine (H.bind_of h3 (show _ = (x, r') from hx)).trans ?_
              refine Eq.trans ?_ (H.bind_of (H.bind_of h3 (show _ = (Except.ok none, []) from rfl)) (show _ = (x, r') from hx)).symm
              rw [List.append_nil]
          | some full =>
            have h4 : (H.lift (.ok k) >>= fun b => (pure (some (b ++ full)) : H (Option Bytes))) c = (.ok (some (k ++ full)), []) := rfl
            refine (H.bind_of h3 h4).trans ?_
            refine Eq.trans ?_ (H.bind_of (H.bind_of h3 h4) (show _ = (Except.ok _, []) from rfl)).symm
            rw [List.append_nil, List.append_nil]

/-- An accepted line was accepted by a row; the rows before it refused it. -/
theorem call_row {tokens : List Str} {c : Ctx} {blob : Bytes} : ∀ {conds : List (Nat × List I86Arg)} {rels : List Reloc},
    i86Call tokens conds c = (.ok (some blob), rels) →
    ∃ pre base args post stale own, conds = pre ++ (base, args) :: post ∧ rels = stale ++ own ∧ rowRun tokens base args c = (.ok (some blob), own) ∧
      (∀ r ∈ pre, ∃ rs, rowRun tokens r.1 r.2 c = (.ok none, rs) ∧ ∀ x ∈ rs, x ∈ stale) ∧
      (∀ x ∈ stale, ∃ r ∈ pre, ∃ rs, rowRun tokens r.1 r.2 c = (.ok none, rs) ∧ x ∈ rs)
  | [], rels, h => by
    simp only [i86Call] at h
    cases h
  | (base, args) :: conds, rels, h => by
    rw [call_cons] at h
    obtain ⟨r, r1, r2, h1, h2, rfl⟩ := H.bind_ok h
    cases r with
    | some b =>
      cases h2
      exact ⟨[], base, args, conds, [], r1, rfl, by simp, h1, by simp, by simp⟩
    | none =>
      obtain ⟨pre, base', args', post, stale, own, rfl, rfl, h3, h4, h5⟩ := call_row h2
      refine ⟨(base, args) :: pre, base', args', post, r1 ++ stale, own, rfl, by simp, h3, ?_, ?_⟩
      · intro r hr
        rcases List.mem_cons.1 hr with rfl | hr
        · exact ⟨r1, h1, fun x hx => List.mem_append_left _ hx⟩
        · obtain ⟨rs, h6, h7⟩ := h4 r hr
          exact ⟨rs, h6, fun x hx => List.mem_append_right _ (h7 x hx)⟩
      · intro x hx
        rcases List.mem_append.1 hx with hx | hx
        · exact ⟨(base, args), List.mem_cons_self .., r1, h1, hx⟩
        · obtain ⟨r, hr, rs, h6, h7⟩ := h5 x hx
          exact ⟨r, List.mem_cons_of_mem _ hr, rs, h6, h7⟩

/-- If no row fails before one that accepts, the line is accepted. -/
theorem call_accepts {tokens : List Str} {c : Ctx} {base : Nat} {args : List I86Arg} {post : List (Nat × List I86Arg)} {blob : Bytes} {own : List Reloc}
    (h : rowRun tokens base args c = (.ok (some blob), own)) : ∀ {pre : List (Nat × List I86Arg)},
    (∀ r ∈ pre, ∃ o rs, rowRun tokens r.1 r.2 c = (.ok o, rs)) → ∃ b rels, i86Call tokens (pre ++ (base, args) :: post) c = (.ok (some b), rels)
  | [], _ => by
    refine ⟨blob, own, ?_⟩
    rw [List.nil_append, call_cons]
    exact lift_bind h rfl
  | (b1, a1) :: pre, hp => by
    obtain ⟨o, rs, h1⟩ := hp _ (List.mem_cons_self ..)
    rw [List.cons_append, call_cons]
    cases o with
    | some b => exact ⟨b, rs, lift_bind h1 rfl⟩
    | none =>
      obtain ⟨b, rels, h2⟩ := call_accepts h (pre := pre) fun r hr => hp r (List.mem_cons_of_mem _ hr)
      exact ⟨b, rs ++ rels, H.bind_of h1 h2⟩

def rowModrm (base : Nat) : I86Modrm := if 0xFF < base then { reg := some (base % 256) } else {}
def rowOp (base : Nat) : Nat := if 0xFF < base then base / 256 else base

theorem row_enc {t : Str} {rest : List Str} {base : Nat} {args : List I86Arg} {c : Ctx} {blob : Bytes} {rels : List Reloc}
    (hargs : argsOk args = true) (hb : base % 256 < 8 ∨ base ≤ 0xFF) (h : rowRun (t :: rest) base args c = (.ok (some blob), rels)) :
    (args = [] ∧ rest = [] ∧ blob = [BitVec.ofNat 8 (rowOp base)] ∧ rels = []) ∨
    ∃ ts us s v b, args ≠ [] ∧ rest = ts ++ us ∧ blob = BitVec.ofNat 8 (rowOp base) :: b ∧ I86Encs c (rowModrm base) false args ts s v b ∧
      I86Reads c s v rels ∧ (I86Arg.i0 ∈ args → us = []) := by
  unfold rowRun at h
  by_cases h1 : args = []
  · rw [if_pos h1] at h
    by_cases h2 : (t :: rest).length = 1
    · rw [if_pos h2, byte1] at h
      cases h
      exact .inl ⟨h1, List.eq_nil_of_length_eq_zero (by simpa using h2), rfl, rfl⟩
    · rw [if_neg h2] at h
      cases h
  · rw [if_neg h1] at h
    by_cases h2 : (t :: rest).length < 2
    · rw [if_pos h2] at h
      cases h
    · rw [if_neg h2] at h
      obtain ⟨r, r1, r2, h3, h4, rfl⟩ := H.bind_ok h
      cases r with
      | none => cases h4
      | some full =>
        rw [byte1] at h4
        cases h4
        simp only [argsOk, Bool.and_eq_true, Bool.or_eq_true, decide_eq_true_eq] at hargs
        have hm : (rowModrm base).Ok := by
          unfold rowModrm
          split
          · refine ⟨by simp, fun n e => ?_, by simp⟩
            simp only [Option.some.injEq] at e
            omega
          · exact ⟨by simp, by simp, by simp⟩
        obtain ⟨ts, us, s, v, b, h5, hf, h6, h7, h8⟩ := args_enc (by omega) hargs.1 (fun h => absurd h (by decide)) (fun h => by
          rcases hargs.2 with h' | h'
          · exact absurd h h'
          · exact h') (Nat.le_refl 1) hm h3
        refine .inr ⟨ts, us, s, v, b, h1, by simpa using h5, ?_, h6, by simpa using h7, h8⟩
        rw [hf]
        rfl

end Necro
