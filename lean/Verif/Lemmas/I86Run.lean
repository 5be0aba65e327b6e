import Verif.Lemmas.I86Decode
/-!
# Running the argument functions of the 8086 assembler on operands that are there
-/

namespace Necro
open Spec

theorem reads_append {c : Ctx} : ∀ {s s' : List M68Slot} {v v' : List Int} {rels : List Reloc}, s.length = v.length → I86Reads c (s ++ s') (v ++ v') rels →
    ∃ r r', rels = r ++ r' ∧ I86Reads c s v r ∧ I86Reads c s' v' r'
  | [], s', [], v', rels, _, h => ⟨[], rels, rfl, .nil, h⟩
  | p :: s, s', x :: v, v', rels, hl, h => by
    cases h with
    | cons h1 h2 =>
      obtain ⟨r, r', rfl, h3, h4⟩ := reads_append (by simpa using hl) h2
      exact ⟨_ ++ r, r', by simp, .cons h1 h3, h4⟩

theorem reads_one {c : Ctx} {p : M68Slot} {v : Int} {rels : List Reloc} (h : I86Reads c [p] [v] rels) : H.parseIntegerOrLabel p.2.1 p.2.2 c = (.ok v, rels) := by
  cases h with
  | cons h1 h2 =>
    cases h2
    rw [List.append_nil]
    exact h1

theorem named_run {names : List String} {n : Nat} {tokens us : List Str} {index : Nat} {m : I86Modrm} {c : Ctx} {t : Str}
    (hu : ∀ s ∈ names, upper s.toList = s.toList) (ht : tokens.drop index = [t] ++ us) (h : I86Name names n t) :
    i86Named ((names.map String.toList).getD n []) tokens index m c = (.ok (some (1, []), m), []) := by
  unfold i86Named
  rw [H.bind_run (token_run ht c)]
  obtain ⟨s, hs, he⟩ := h
  have he : upper t = upper s.toList := he
  rw [hu s (List.mem_of_getElem? hs)] at he
  have hg : (names.map String.toList).getD n [] = s.toList := by
    rw [List.getD_eq_getElem?_getD, List.getElem?_map, hs]
    rfl
  rw [hg, if_pos he]
  rfl

theorem reg_names {a : I86Arg} {names : List String} (ha : (a, names) ∈ [(I86Arg.gb, i86Names8), (.gv, i86Names16), (.sw, i86NamesSeg)]) :
    (∀ s ∈ names, upper s.toList = s.toList) ∧ (names.map String.toList).Nodup ∧
    ∀ tokens index m, a.run tokens index m = i86Reg (names.map String.toList) tokens index m := by
  simp only [List.mem_cons, Prod.mk.injEq, List.not_mem_nil, or_false] at ha
  rcases ha with ⟨rfl, rfl⟩ | ⟨rfl, rfl⟩ | ⟨rfl, rfl⟩
  · exact ⟨names8_upper, names8_nodup, fun _ _ _ => rfl⟩
  · exact ⟨names16_upper, names16_nodup, fun _ _ _ => rfl⟩
  · exact ⟨namesSeg_upper, namesSeg_nodup, fun _ _ _ => rfl⟩

theorem rm_names {a : I86Arg} {names : List String} (ha : (a, names) ∈ [(I86Arg.eb, i86Names8), (.ev, i86Names16)]) :
    (∀ s ∈ names, upper s.toList = s.toList) ∧ (names.map String.toList).Nodup ∧
    ∀ tokens index m, a.run tokens index m = i86Either (names.map String.toList) tokens index m := by
  simp only [List.mem_cons, Prod.mk.injEq, List.not_mem_nil, or_false] at ha
  rcases ha with ⟨rfl, rfl⟩ | ⟨rfl, rfl⟩
  · exact ⟨names8_upper, names8_nodup, fun _ _ _ => rfl⟩
  · exact ⟨names16_upper, names16_nodup, fun _ _ _ => rfl⟩

theorem open_no_name : ∀ names ∈ [i86Names8, i86Names16], upper ['['] ∉ names.map String.toList := by decide

set_option maxHeartbeats 2000000 in
theorem enc_run {a : I86Arg} {tokens us ts : List Str} {index : Nat} {m m' : I86Modrm} {c : Ctx} {b : Bytes} {s : List M68Slot} {v : List Int} {rels : List Reloc}
    (h : I86Enc c m (decide (1 < index)) a ts s v b m') (hr : I86Reads c s v rels) (hm : m'.Ok) (ht : tokens.drop index = ts ++ us)
    (hi : a = .i0 → tokens.length = 2) : a.run tokens index m c = (.ok (some (ts.length, b), m'), rels) := by
  cases h with
  | reg hn hname hl =>
    obtain ⟨hu, hnd, e⟩ := reg_names hn
    obtain ⟨h1, h2⟩ := mem_of_name hu hnd hname
    cases hr
    rw [e]
    unfold i86Reg
    rw [H.bind_run (token_run ht c), if_pos h1, h2]
    simp only [decide_eq_false_iff_not] at hl
    simp only [if_neg hl]
    rfl
  | regLate hn hname hl hb =>
    obtain ⟨hu, hnd, e⟩ := reg_names hn
    obtain ⟨h1, h2⟩ := mem_of_name hu hnd hname
    rw [e]
    unfold i86Reg
    rw [H.bind_run (token_run ht c), if_pos h1, h2]
    simp only [decide_eq_true_eq] at hl
    simp only [if_pos hl]
    exact lift_bind (build_run hm hb hr) rfl
  | r8 hn => cases hr; exact named_run names8_upper ht hn
  | r16 hn => cases hr; exact named_run names16_upper ht hn
  | seg hn => cases hr; exact named_run namesSeg_upper ht hn
  | rm hn hname hb =>
    obtain ⟨hu, hnd, e⟩ := rm_names hn
    obtain ⟨h1, h2⟩ := mem_of_name hu hnd hname
    rw [e]
    unfold i86Either
    rw [H.bind_run (token_run ht c), if_pos h1, h2]
    exact lift_bind (late_run hm hb hr) rfl
  | @mem _ ts mod rm d _ _ _ hn hno hg hb =>
    have ht' : tokens.drop index = ['['] :: (ts ++ [']'] :: us) := by rw [ht]; simp
    have hrun := mem_run (m := m) (vs := us) (by rw [ht]; simp) hno hg (late_run hm hb hr)
    have hlen : (['['] :: ts ++ [[']']]).length = ts.length + 2 := by simp
    rw [hlen]
    simp only [List.mem_cons, List.not_mem_nil, or_false] at hn
    rcases hn with rfl | rfl | rfl
    · simp only [I86Arg.run]
      unfold i86Either
      rw [H.bind_run (token_run ht' c), if_neg (by exact open_no_name _ (List.mem_cons_self ..)), if_pos (upper_open.2 rfl)]
      exact hrun
    · simp only [I86Arg.run]
      unfold i86Either
      rw [H.bind_run (token_run ht' c), if_neg (by exact open_no_name _ (List.mem_cons_of_mem _ (List.mem_cons_self ..))), if_pos (upper_open.2 rfl)]
      exact hrun
    · simp only [I86Arg.run]
      rw [H.bind_run (token_run ht' c), if_pos rfl]
      exact hrun
  | ib hf =>
    simp only [I86Arg.run]
    rw [H.bind_run (token_run ht c), if_neg (by rw [free_iff.1 hf]; decide)]
    refine lift_bind (reads_one hr) ?_
    rw [byte1]
    rfl
  | iv hf =>
    simp only [I86Arg.run]
    rw [H.bind_run (token_run ht c), if_neg (by rw [free_iff.1 hf]; decide)]
    refine lift_bind (reads_one hr) ?_
    rw [le16u]
    rfl
  | jb hf hc =>
    simp only [I86Arg.run]
    rw [H.bind_run (token_run ht c), if_neg (by rw [noReg_iff.1 hf]; simpa using hc), H.bind_run (H.read_apply c)]
    refine lift_bind (reads_one hr) ?_
    rw [pack8s_one]
    rfl
  | jv hf hc =>
    simp only [I86Arg.run]
    rw [H.bind_run (token_run ht c), if_neg (by rw [noReg_iff.1 hf]; simpa using hc), H.bind_run (H.read_apply c)]
    refine lift_bind (reads_one hr) ?_
    rw [le16u]
    rfl
  | ob hf =>
    simp only [I86Arg.run]
    rw [direct_run hf ht]
    have h1 := reads_one hr
    have hv := unsigned_bounds (by simp [byteSlot]) rfl h1
    refine lift_bind h1 ?_
    rw [le16u, byte_le hv.1 hv.2]
    rfl
  | ov hf =>
    simp only [I86Arg.run]
    rw [direct_run hf ht]
    refine lift_bind (reads_one hr) ?_
    rw [le16u]
    rfl
  | mp hf hb =>
    have hl : ∀ {m : I86Modrm} {s : List M68Slot} {v : List Int} {b : Bytes}, I86Build m s v b → s.length = v.length := by
      intro m s v b h
      cases h <;> rfl
    obtain ⟨r, r', rfl, h1, h2⟩ := reads_append (hl hb) hr
    simp only [I86Arg.run]
    rw [direct_run hf ht]
    refine H.bind_of (build_run hm hb h1) ?_
    refine lift_bind (reads_one h2) ?_
    rw [le16u]
    rfl
  | @ap t u v w h1 h2 =>
    have hr' : I86Reads c ([wordSlot u] ++ [segSlot t]) ([v] ++ [w]) rels := hr
    obtain ⟨r, r', rfl, h3, h4⟩ := reads_append rfl hr'
    have hreg : i86IsReg (t ++ ':' :: u) = false := by
      rw [Bool.eq_false_iff]
      intro hb
      unfold i86IsReg at hb
      rw [decide_eq_true_eq] at hb
      have hno : ∀ n ∈ i86Regs8 ++ i86Regs16 ++ i86Segments, ':' ∉ n := by decide
      refine hno _ hb ?_
      simp [upper]
    simp only [I86Arg.run]
    rw [H.bind_run (token_run ht c), if_pos (by simp [hreg]), splitOn_colon h1 h2]
    refine H.bind_of (reads_one h3) ?_
    refine lift_bind (reads_one h4) ?_
    rw [le16u_two]
    rfl
  | three =>
    cases hr
    simp only [I86Arg.run]
    rw [H.bind_run (token_run ht c)]
    rfl
  | @ten t hp =>
    cases hr
    simp only [I86Arg.run]
    rw [if_neg (by rw [hi rfl]; decide), if_pos (hi rfl), H.bind_run (token_run ht c),
      H.bind_run (show H.parseInteger t 8 false c = (.ok (some 10), []) by rw [H.parseInteger_apply, hp])]
    rfl
  | @i0 t v hp hv =>
    cases hr
    simp only [I86Arg.run]
    rw [if_neg (by rw [hi rfl]; decide), if_pos (hi rfl), H.bind_run (token_run ht c),
      H.bind_run (show H.parseInteger t 8 false c = (.ok (some v), []) by rw [H.parseInteger_apply, hp])]
    simp only [if_neg hv]
    rw [byte1]
    rfl

theorem enc_ok {a : I86Arg} {ts : List Str} {late : Bool} {m m' : I86Modrm} {c : Ctx} {b : Bytes} {s : List M68Slot} {v : List Int}
    (h : I86Enc c m late a ts s v b m') (hm : m.Ok) : m'.Ok := by
  obtain ⟨h1, h2, h3⟩ := hm
  cases h with
  | reg hn hname hl =>
    refine ⟨h1, ?_, h3⟩
    intro n e
    cases e
    have hlen : ∀ p ∈ [(I86Arg.gb, i86Names8), (.gv, i86Names16), (.sw, i86NamesSeg)], p.2.length ≤ 8 := by decide
    exact Nat.lt_of_lt_of_le (name_lt hname) (hlen _ hn)
  | regLate hn hname hl hb =>
    refine ⟨h1, ?_, h3⟩
    intro n e
    cases e
    have hlen : ∀ p ∈ [(I86Arg.gb, i86Names8), (.gv, i86Names16), (.sw, i86NamesSeg)], p.2.length ≤ 8 := by decide
    exact Nat.lt_of_lt_of_le (name_lt hname) (hlen _ hn)
  | rm hn hname hb =>
    have hlen : ∀ p ∈ [(I86Arg.eb, i86Names8), (.ev, i86Names16)], p.2.length ≤ 8 := by decide
    refine ⟨?_, h2, ?_⟩
    · intro n e; cases e; decide
    · intro n e
      cases e
      exact Nat.lt_of_lt_of_le (name_lt hname) (hlen _ hn)
  | mem hn hno hg hb =>
    have := getMod_bounds hg
    refine ⟨?_, h2, ?_⟩
    · intro n e; cases e; exact this.1
    · intro n e; cases e; exact this.2
  | mp hf hb =>
    refine ⟨?_, h2, ?_⟩
    · intro n e; cases e; decide
    · intro n e; cases e; decide
  | _ => exact ⟨h1, h2, h3⟩

theorem args_run {tokens : List Str} {c : Ctx} : ∀ {as : List I86Arg} {index : Nat} {m : I86Modrm} {blob b : Bytes} {ts us : List Str} {s : List M68Slot}
    {v : List Int} {rels : List Reloc}, I86Encs c m (decide (1 < index)) as ts s v b → I86Reads c s v rels → m.Ok → 1 ≤ index →
    tokens.drop index = ts ++ us → (I86Arg.i0 ∈ as → tokens.length = 2) → i86Args tokens as index m blob c = (.ok (some (blob ++ b)), rels)
  | [], index, m, blob, b, ts, us, s, v, rels, h, hr, _, _, _, _ => by
    cases h
    cases hr
    simp only [i86Args, List.append_nil]
    rfl
  | a :: as, index, m, blob, b, ts, us, s, v, rels, h, hr, hm, h1, ht, hi => by
    cases h with
    | @cons _ _ _ _ ts1 ts2 s1 s2 v1 v2 b1 b2 m' h2 h3 =>
      obtain ⟨r, r', rfl, h4, h5⟩ := reads_append h2.lengths hr
      have hok := enc_ok h2 hm
      have hrun := enc_run (us := ts2 ++ us) h2 h4 hok (by rw [ht]; simp) (fun e => hi (by simp [e]))
      have hne := h2.ne_nil
      simp only [i86Args]
      refine H.bind_of hrun ?_
      simp only
      rw [if_neg (by omega), ← List.append_assoc]
      refine args_run (ts := ts2) (us := us) ?_ h5 hok (by omega) ?_ (fun e => hi (by simp [e]))
      · rwa [show decide (1 < index + ts1.length) = true by simp; omega]
      · rw [← List.drop_drop, ht, List.append_assoc, List.drop_left]

theorem row_ok {base : Nat} (hb : base % 256 < 8 ∨ base ≤ 0xFF) : (rowModrm base).Ok := by
  unfold rowModrm
  split
  · refine ⟨by simp, fun n e => ?_, by simp⟩
    simp only [Option.some.injEq] at e
    omega
  · exact ⟨by simp, by simp, by simp⟩

theorem row_run {t : Str} {ts us : List Str} {base : Nat} {args : List I86Arg} {c : Ctx} {s : List M68Slot} {v : List Int} {b : Bytes} {rels : List Reloc}
    (hne : args ≠ []) (hb : base % 256 < 8 ∨ base ≤ 0xFF) (h : I86Encs c (rowModrm base) false args ts s v b) (hr : I86Reads c s v rels)
    (hi : I86Arg.i0 ∈ args → us = [] ∧ ts.length = 1) :
    rowRun (t :: (ts ++ us)) base args c = (.ok (some (BitVec.ofNat 8 (rowOp base) :: b)), rels) := by
  have hlen : 1 ≤ ts.length := by
    cases h with
    | nil => exact absurd rfl hne
    | cons h1 h2 =>
      have := h1.ne_nil
      simp
      omega
  unfold rowRun
  rw [if_neg hne, if_neg (by simp; omega)]
  have h1 := args_run (tokens := t :: (ts ++ us)) (index := 1) (blob := []) (us := us) h hr (row_ok hb) (Nat.le_refl 1) rfl (by
    intro e
    obtain ⟨rfl, h2⟩ := hi e
    simp [h2])
  unfold rowModrm at h1
  refine lift_bind h1 ?_
  simp only [byte1]
  rfl

end Necro
