import Verif.Lemmas.M68Cases
/-!
# Every line of 68000 has a shape
-/

namespace Necro
open Spec

variable {c : Ctx} {t : Str} {rest : List Str} {blob : Bytes} {rels : List Reloc}

/-- The line is one of the odd ones or has a shape. -/
def M68Known (c : Ctx) (t : Str) (rest : List Str) (blob : Bytes) (rels : List Reloc) : Prop :=
  (∀ value, M68Odd value t rest) ∨ ∃ sh used a b ra rb, M68Line c t rest blob rels sh used a b ra rb

theorem words_bytes (sh : M68Shape) (a b : Int) : bytesOf (sh.words a b) = bytesOf [sh.head a] ++ bytesOf (sh.seg1 a) ++ bytesOf (sh.seg2 b) := by
  rw [← bytesOf_append, ← bytesOf_append]
  simp [M68Shape.words]

theorem toAddress_ok {sz : M68Size} {f : EaForm} {used extra : List Str} {v : Int} {r' : List Reloc} (hrest : rest = used ++ extra) (hf : f.Valid)
    (hm : instrMatch (t :: rest) [.coll m68A] (1 + used.length) = true)
    (h : m68ToAddress (t :: rest) (moveCode sz) ⟨1 + used.length, f.modeNo, f.regNo, bytesOf (f.ext sz v)⟩ c = (.ok (some blob), r')) :
    ∃ r n, extra = [r] ∧ M68Reg 'a' n r ∧ blob = bytesOf ((M68Shape.movea sz f n).words v 0) ∧ r' = [] := by
  obtain ⟨r, rfl, hr⟩ := match_last hrest hm
  obtain ⟨n, hn⟩ := (matches_m68A r).1 hr
  refine ⟨r, n, rfl, hn, ?_⟩
  have hrun : m68Reg ((t :: rest).getD (1 + used.length) []) c = (.ok (n : Int), []) := by
    rw [hrest, getD_last]; exact m68Reg_of hn c
  obtain ⟨x, s1, s2, h1, h2, rfl⟩ := H.bind_ok (show (m68Reg ((t :: rest).getD (1 + used.length) []) >>= fun x => _) c = _ from h)
  rw [hrun] at h1
  obtain ⟨k1, k2⟩ := Prod.mk.inj h1
  cases k1; subst k2
  obtain ⟨b, s3, s4, h3, h4, rfl⟩ := H.bind_ok (show (m68Build _ _ >>= fun b => _) c = _ from h2)
  simp only at h3
  rw [build_movea (moveCode_lt sz) hn.1 (EaForm.regNo_lt hf).2 (EaForm.regNo_lt hf).1] at h3
  obtain ⟨k1, k2⟩ := Prod.mk.inj h3
  cases k1; subst k2
  obtain ⟨k1, k2⟩ := Prod.mk.inj h4
  cases k1; subst k2
  refine ⟨?_, rfl⟩
  rw [words_bytes]
  simp [M68Shape.seg1, M68Shape.seg2, bytesOf, M68Shape.head]

theorem move_known {sz : M68Size} (hname : M68Name t "MOVE" sz) (hd : m68Dark t = (m68Bytes sz, moveCode sz))
    (h : m68Run .move (t :: rest) c = (.ok (some blob), rels)) : M68Known c t rest blob rels := by
  obtain ⟨o, r1, r2, h1, h2, rfl⟩ := H.bind_ok (show (m68Mode (t :: rest) 1 0 (m68Dark t).1 [] >>= fun o => _) c = _ from h)
  rw [hd] at h1
  rcases operand_cases (pre := []) (l := rest) (sz := sz) (.inl rfl) rfl rfl (by simp) (by simp) h1 with ho | ⟨f, used, extra, v, hrest, ht, hv, -, rfl, hs⟩
  · exact .inl ho
  · simp only [List.length_nil, Nat.add_zero, List.getD_cons_zero] at h2
    split at h2
    · next hc =>
      rw [hd] at hc h2
      obtain ⟨r, n, rfl, hn, hb, rfl⟩ := toAddress_ok hrest hv hc.2 h2
      right
      refine ⟨.movea sz f n, used ++ [r], v, 0, r1, [], ⟨[], by simp [hrest], fun h => absurd rfl h⟩, rfl, hb, hs, .inl ⟨rfl, rfl⟩, ⟨hv, hn.1, ?_⟩, .movea (.inl hname) ht hn⟩
      rintro rfl
      have := hc.1
      simp [m68Bytes] at this
    · obtain ⟨o', r3, r4, h3, h4, rfl⟩ := H.bind_ok (show (m68Mode (t :: rest) _ _ (m68Dark t).1 m68Alterable >>= fun o => _) c = _ from h2)
      rw [hd] at h3 h4
      rcases operand_cases (pre := used) (l := extra) (sz := sz) (.inl rfl) hrest rfl (by decide) (by decide) h3 with
        ho | ⟨g, used', extra', w, hrest', ht', hv', hb', rfl, hs'⟩
      · exact .inl ho
      · obtain ⟨b, r5, r6, h5, h6, rfl⟩ := H.bind_ok (show (m68Build _ _ >>= fun b => _) c = _ from h4)
        rw [build_move (moveCode_lt sz) (EaForm.regNo_lt hv').1 (EaForm.regNo_lt hv').2 (EaForm.regNo_lt hv).2 (EaForm.regNo_lt hv).1] at h5
        obtain ⟨k1, k2⟩ := Prod.mk.inj h5
        cases k1; subst k2
        obtain ⟨k1, k2⟩ := Prod.mk.inj h6
        cases k1; subst k2
        right
        refine ⟨.move sz f g, used ++ used', v, w, r1, r3, ⟨extra', by rw [hrest, hrest', List.append_assoc], fun _ => trivial⟩, by simp, ?_, hs, ?_,
          ⟨hv, hv', hb'⟩, .move hname ht ht'⟩
        · rw [words_bytes]; rfl
        · rw [bytesOf_length] at hs'
          simp only [M68Shape.slot2]
          rw [ext_length f sz 0 v]
          exact hs'

theorem movea_known {sz : M68Size} (hname : M68Name t "MOVEA" sz) (hz : sz ≠ .byte) (hd : m68Dark t = (m68Bytes sz, moveCode sz))
    (h : m68Run .movea (t :: rest) c = (.ok (some blob), rels)) : M68Known c t rest blob rels := by
  obtain ⟨o, r1, r2, h1, h2, rfl⟩ := H.bind_ok (show (m68Mode (t :: rest) 1 0 (m68Dark t).1 [] >>= fun o => _) c = _ from h)
  rw [hd] at h1
  rcases operand_cases (pre := []) (l := rest) (sz := sz) (.inl rfl) rfl rfl (by simp) (by simp) h1 with ho | ⟨f, used, extra, v, hrest, ht, hv, -, rfl, hs⟩
  · exact .inl ho
  · simp only [List.length_nil, Nat.add_zero, List.getD_cons_zero] at h2
    split at h2
    · next hc =>
      rw [hd] at h2
      obtain ⟨r, n, rfl, hn, hb, rfl⟩ := toAddress_ok hrest hv hc h2
      right
      exact ⟨.movea sz f n, used ++ [r], v, 0, r1, [], ⟨[], by simp [hrest], fun h => absurd rfl h⟩, rfl, hb, hs, .inl ⟨rfl, rfl⟩, ⟨hv, hn.1, hz⟩, .movea (.inr hname) ht hn⟩
    · exact absurd h2 (by intro h; cases h)

theorem status_known {op : M68Op} {sz : M68Size} {v r : Str} {s : Nat} (hst : op.status = true) (hz : sz ≠ .long)
    (hs : s = (if sz = .byte then 0x3C else 0x7C)) (ht : M68Shape.Text t (.status op sz v) ['#' :: v, r])
    (h : (do let p ← m68Packer v (m68Bytes sz) 0
             let b ← m68Build ((opCode op * 512 : Nat) + (s : Int)) []
             pure (some (b ++ p)) : H (Option Bytes)) c = (.ok (some blob), rels)) : M68Known c t ['#' :: v, r] blob rels := by
  obtain ⟨p, r1, r2, h1, h2, rfl⟩ := H.bind_ok h
  obtain ⟨q, x, hq, hx, rfl⟩ := m68Packer_ok h1
  obtain ⟨b, r3, r4, h3, h4, rfl⟩ := H.bind_ok (show (m68Build _ _ >>= fun b => _) c = _ from h2)
  rw [build_status (by rw [hs]; split <;> simp)] at h3
  obtain ⟨k1, k2⟩ := Prod.mk.inj h3
  cases k1; subst k2
  obtain ⟨k1, k2⟩ := Prod.mk.inj h4
  cases k1; subst k2
  right
  refine ⟨.status op sz v, ['#' :: v, r], x, 0, r1, [], ⟨[], by simp, fun h => absurd rfl h⟩, by simp, ?_, .inr ⟨q, hq, hx⟩, .inl ⟨rfl, rfl⟩, ⟨hst, hz⟩, ht⟩
  rw [words_bytes]
  have e : opCode op * 512 + s = (M68Shape.status op sz v).head x := by
    rw [hs]; cases sz <;> simp [M68Shape.head, immCode] at hz ⊢
  rw [e]
  simp [M68Shape.seg1, M68Shape.seg2, bytesOf]

theorem imm_known {op : M68Op} {sz : M68Size} (hname : M68Name t op.name sz) (hd : m68Light t = (m68Bytes sz, immCode sz))
    (h : m68Run (.imm (opCode op * 512) op.status) (t :: rest) c = (.ok (some blob), rels)) : M68Known c t rest blob rels := by
  simp only [m68Run] at h
  split at h
  · next hc =>
    obtain ⟨i, r, rfl, h1, h2⟩ := instr2 hc.2
    rw [matches_pred] at h1
    obtain ⟨v, hv, rfl⟩ := (m68IsImm_iff i).1 h1
    rcases (matches_name r "CCR").1 h2 with h2 | h2
    · by_cases hn : eqNoCase t op.name.toList ∨ eqNoCase t (op.name ++ ".B").toList
      · exact status_known (sz := .byte) (s := 0x3C) hc.1 (by simp) rfl (.ccr hn hv h2) h
      · left
        intro value
        refine .statusSize hc.1 rfl (.inl ⟨h2, ?_⟩)
        rcases hname with hname | ⟨_, hname⟩
        · cases sz with
          | byte => exact absurd (.inr hname) hn
          | word => exact .inl hname
          | long => exact .inr hname
        · exact absurd (.inl hname) hn
    · exact .inl fun value => .status hname hc.1 rfl (letter_mono h2 (by decide))
  · split at h
    · next hc =>
      obtain ⟨i, r, rfl, h1, h2⟩ := instr2 hc.2
      rw [matches_pred] at h1
      obtain ⟨v, hv, rfl⟩ := (m68IsImm_iff i).1 h1
      rcases (matches_name r "SR").1 h2 with h2 | h2
      · by_cases hn : M68Name t op.name .word
        · exact status_known (sz := .word) (s := 0x7C) hc.1 (by simp) rfl (.sr hn hv h2) h
        · left
          intro value
          refine .statusSize hc.1 rfl (.inr ⟨h2, ?_⟩)
          rcases hname with hname | ⟨rfl, hname⟩
          · cases sz with
            | byte => exact .inl hname
            | word => exact absurd (.inl hname) hn
            | long => exact .inr hname
          · exact absurd (.inr ⟨rfl, hname⟩) hn
      · exact .inl fun value => .status hname hc.1 rfl (letter_mono h2 (by decide))
    · rw [unbound_eq] at h
      by_cases hm : matchPrefix ((t :: rest).drop 1) [.pred m68IsImm] = true
      · · rw [if_pos hm] at h
          simp only [List.getD_cons_zero] at h
          obtain ⟨u, l, hl, hu⟩ := matchPrefix1 hm
          have hl : rest = u :: l := hl
          subst hl
          rw [matches_pred] at hu
          obtain ⟨v, hv, rfl⟩ := (m68IsImm_iff u).1 hu
          obtain ⟨p, r1, r2, h1, h2, rfl⟩ := H.bind_ok (show (m68Packer v (m68Light t).1 0 >>= fun b => _) c = _ from h)
          rw [hd] at h1
          obtain ⟨q, x, hq, hx, rfl⟩ := m68Packer_ok h1
          obtain ⟨o, r3, r4, h3, h4, rfl⟩ := H.bind_ok (show (m68Mode _ (1 + (0 + 1)) _ (m68Light t).1 m68Alterable >>= fun b => _) c = _ from h2)
          rw [hd] at h3
          rcases operand_cases (pre := ['#' :: v]) (l := l) (sz := sz) (.inl rfl) rfl rfl (by decide) (by decide) h3 with
            ho | ⟨g, used', extra', w, hrest', ht', hv', hb', rfl, hs'⟩
          · exact .inl ho
          · obtain ⟨b, r5, r6, h5, h6, rfl⟩ := H.bind_ok (show (m68Build _ [⟨7, 6, ((m68Light t).2 : Int)⟩, _, _] >>= fun b => _) c = _ from h4)
            rw [hd, build_imm (immCode_lt sz) (EaForm.regNo_lt hv').2 (EaForm.regNo_lt hv').1] at h5
            obtain ⟨k1, k2⟩ := Prod.mk.inj h5
            cases k1; subst k2
            obtain ⟨k1, k2⟩ := Prod.mk.inj h6
            cases k1; subst k2
            right
            refine ⟨.imm op sz v g, ('#' :: v) :: used', x, w, r1, r3, ⟨extra', by rw [hrest']; rfl, fun _ => trivial⟩, by simp, ?_, .inr ⟨q, hq, hx⟩, hs', ⟨hv', hb'⟩,
              .imm hname hv ht'⟩
            rw [words_bytes]; rfl
      · rw [if_neg hm] at h
        exact absurd h (by intro h; cases h)

theorem lea_known (hname : eqNoCase t "LEA".toList ∨ eqNoCase t "LEA.L".toList)
    (h : m68Run .lea (t :: rest) c = (.ok (some blob), rels)) : M68Known c t rest blob rels := by
  obtain ⟨o, r1, r2, h1, h2, rfl⟩ := H.bind_ok (show (m68Mode (t :: rest) 1 0 4 m68Control >>= fun o => _) c = _ from h)
  rcases operand_cases (pre := []) (l := rest) (sz := .long) (.inl rfl) rfl rfl (by decide) (by decide) h1 with
    ho | ⟨f, used, extra, v, hrest, ht, hv, hb, rfl, hs⟩
  · exact .inl ho
  · simp only [List.length_nil, Nat.add_zero, List.getD_cons_zero] at h2
    split at h2
    · next hc =>
      obtain ⟨r, rfl, hr⟩ := match_last hrest hc
      obtain ⟨n, hn⟩ := (matches_m68A r).1 hr
      have hrun : m68Reg ((t :: rest).getD (1 + used.length) []) c = (.ok (n : Int), []) := by
        rw [hrest, getD_last]; exact m68Reg_of hn c
      obtain ⟨x, s1, s2, h3, h4, rfl⟩ := H.bind_ok (show (m68Reg ((t :: rest).getD (1 + used.length) []) >>= fun x => _) c = _ from h2)
      rw [hrun] at h3
      obtain ⟨k1, k2⟩ := Prod.mk.inj h3
      cases k1; subst k2
      obtain ⟨b, s3, s4, h5, h6, rfl⟩ := H.bind_ok (show (m68Build _ _ >>= fun b => _) c = _ from h4)
      rw [build_lea hn.1 (EaForm.regNo_lt hv).2 (EaForm.regNo_lt hv).1] at h5
      obtain ⟨k1, k2⟩ := Prod.mk.inj h5
      cases k1; subst k2
      obtain ⟨k1, k2⟩ := Prod.mk.inj h6
      cases k1; subst k2
      right
      refine ⟨.lea f n, used ++ [r], v, 0, r1, [], ⟨[], by simp [hrest], fun h => absurd rfl h⟩, by simp, ?_, hs, .inl ⟨rfl, rfl⟩, ⟨hv, hn.1, hb⟩, .lea hname ht hn⟩
      rw [words_bytes]
      simp [M68Shape.seg1, M68Shape.seg2, bytesOf, M68Shape.head]
    · exact absurd h2 (by intro h; cases h)

theorem jump_known {j : Bool} (hname : eqNoCase t (if j then "JMP" else "JSR").toList)
    (h : m68Run (.jump (if j then 0x4EC0 else 0x4E80)) (t :: rest) c = (.ok (some blob), rels)) : M68Known c t rest blob rels := by
  obtain ⟨o, r1, r2, h1, h2, rfl⟩ := H.bind_ok (show (m68Mode (t :: rest) 1 0 0 m68Control >>= fun o => _) c = _ from h)
  rcases operand_cases (pre := []) (l := rest) (sz := .long) (.inr (by decide)) rfl rfl (by decide) (by decide) h1 with
    ho | ⟨f, used, extra, v, hrest, ht, hv, hb, rfl, hs⟩
  · exact .inl ho
  · obtain ⟨b, s3, s4, h5, h6, rfl⟩ := H.bind_ok (show (m68Build _ _ >>= fun b => _) c = _ from h2)
    rw [build_jump (by cases j <;> simp) (EaForm.regNo_lt hv).2 (EaForm.regNo_lt hv).1] at h5
    obtain ⟨k1, k2⟩ := Prod.mk.inj h5
    cases k1; subst k2
    obtain ⟨k1, k2⟩ := Prod.mk.inj h6
    cases k1; subst k2
    right
    refine ⟨.jump j f, used, v, 0, r1, [], ⟨extra, hrest, fun _ => trivial⟩, by simp, ?_, hs, .inl ⟨rfl, rfl⟩, ⟨hv, hb⟩, .jump hname ht⟩
    rw [words_bytes]
    simp [M68Shape.seg1, M68Shape.seg2, bytesOf, M68Shape.head]

theorem bcc_known {k : Nat} (hk : k < 16) (hc : condIdx (t.drop 1) = some k)
    (hname : (eqNoCase t ("B" ++ condName k ++ ".B").toList ∧ (m68Dark t).1 = 1) ∨ (M68Name t ("B" ++ condName k) .word ∧ (m68Dark t).1 = 2))
    (h : m68Run .bcc (t :: rest) c = (.ok (some blob), rels)) : M68Known c t rest blob rels := by
  simp only [m68Run] at h
  split at h
  · next hm =>
    obtain ⟨v, rfl, hv⟩ := instr1 hm
    rw [matches_pred, m68Free_iff] at hv
    obtain ⟨x, r1, r2, h1, h2, rfl⟩ := H.bind_ok (show (m68Cond (t.drop 1) >>= fun x => _) c = _ from h)
    rw [m68Cond_eq, hc] at h1
    obtain ⟨k1, k2⟩ := Prod.mk.inj h1
    cases k1; subst k2
    rw [H.bind_run (show H.read c = (.ok c, []) from rfl)] at h2
    simp only [List.getD_cons_zero] at h2
    right
    rcases hname with ⟨hn, hd⟩ | ⟨hn, hd⟩
    · rw [if_pos hd] at h2
      obtain ⟨a, r3, r4, h3, h4, rfl⟩ := H.bind_ok (show (H.parseIntegerOrLabel _ _ >>= fun x => _) c = _ from h2)
      obtain ⟨y, -, -, hb1, hb2⟩ := operand_bounds (by simp) h3
      obtain ⟨b, s3, s4, h5, h6, rfl⟩ := H.bind_ok (show (m68Build _ _ >>= fun b => _) c = _ from h4)
      rw [build_bccB hk (by simpa using hb1) (by simpa using hb2)] at h5
      obtain ⟨k1, k2⟩ := Prod.mk.inj h5
      cases k1; subst k2
      obtain ⟨k1, k2⟩ := Prod.mk.inj h6
      cases k1; subst k2
      exact ⟨.bccB k v, [v], a, 0, r3, [], ⟨[], rfl, fun h => absurd rfl h⟩, by simp, rfl, .inr ⟨_, rfl, h3⟩, .inl ⟨rfl, rfl⟩, hk, .bccB hk hn hv⟩
    · rw [if_neg (by omega), if_pos hd] at h2
      obtain ⟨a, r3, r4, h3, h4, rfl⟩ := H.bind_ok (show (H.parseIntegerOrLabel _ _ >>= fun x => _) c = _ from h2)
      obtain ⟨b, s3, s4, h5, h6, rfl⟩ := H.bind_ok (show (m68Build _ _ >>= fun b => _) c = _ from h4)
      rw [build_bccW hk] at h5
      obtain ⟨k1, k2⟩ := Prod.mk.inj h5
      cases k1; subst k2
      rw [pack16_any] at h6
      obtain ⟨k1, k2⟩ := Prod.mk.inj h6
      cases k1; subst k2
      refine ⟨.bccW k v, [v], a, 0, r3, [], ⟨[], rfl, fun h => absurd rfl h⟩, by simp, ?_, .inr ⟨_, rfl, h3⟩, .inl ⟨rfl, rfl⟩, hk, .bccW hk hn hv⟩
      rw [words_bytes]
      simp only [M68Shape.seg1, bytesOf_one a]
      simp [M68Shape.seg2, bytesOf, M68Shape.head]
  · exact absurd h (by intro h; cases h)

theorem dbcc_known (hname : condIdx (t.drop 2) = none ∨ ∃ k < 16, condIdx (t.drop 2) = some k ∧
      (M68Name t ("DB" ++ condName k) .word ∨ (k = 1 ∧ M68Name t "DBRA" .word)))
    (h : m68Run .dbcc (t :: rest) c = (.ok (some blob), rels)) : M68Known c t rest blob rels := by
  simp only [m68Run] at h
  split at h
  · next hm =>
    obtain ⟨r, v, rfl, hr, hv⟩ := instr2 hm
    rw [matches_pred, m68Free_iff] at hv
    obtain ⟨n, hn⟩ := (matches_m68D r).1 hr
    obtain ⟨x, r1, r2, h1, h2, rfl⟩ := H.bind_ok (show (m68Cond (t.drop 2) >>= fun x => _) c = _ from h)
    rw [m68Cond_eq] at h1
    rcases hname with hc | ⟨k, hk, hc, hnm⟩
    · rw [hc] at h1; cases h1
    · rw [hc] at h1
      obtain ⟨k1, k2⟩ := Prod.mk.inj h1
      cases k1; subst k2
      obtain ⟨y, r3, r4, h3, h4, rfl⟩ := H.bind_ok (show (m68Reg r >>= fun x => _) c = _ from h2)
      rw [m68Reg_of hn] at h3
      obtain ⟨k1, k2⟩ := Prod.mk.inj h3
      cases k1; subst k2
      rw [H.bind_run (show H.read c = (.ok c, []) from rfl)] at h4
      obtain ⟨a, r5, r6, h5, h6, rfl⟩ := H.bind_ok (show (H.parseIntegerOrLabel _ _ >>= fun x => _) c = _ from h4)
      obtain ⟨b, s3, s4, h7, h8, rfl⟩ := H.bind_ok (show (m68Build _ _ >>= fun b => _) c = _ from h6)
      rw [build_dbcc hk hn.1] at h7
      obtain ⟨k1, k2⟩ := Prod.mk.inj h7
      cases k1; subst k2
      rw [pack16_any] at h8
      obtain ⟨k1, k2⟩ := Prod.mk.inj h8
      cases k1; subst k2
      right
      refine ⟨.dbcc k n v, [r, v], a, 0, r5, [], ⟨[], rfl, fun h => absurd rfl h⟩, by simp, ?_, .inr ⟨_, rfl, h5⟩, .inl ⟨rfl, rfl⟩, ⟨hk, hn.1⟩, .dbcc hk hnm hn hv⟩
      rw [words_bytes]
      simp only [M68Shape.seg1, bytesOf_one a]
      simp [M68Shape.seg2, bytesOf, M68Shape.head]
  · exact absurd h (by intro h; cases h)

/-- Every line the assembler accepts is one of the odd ones or has a shape. -/
theorem m68_cases (h : Emits mc68000 c t rest blob rels) : M68Known c t rest blob rels := by
  rcases m68_emits h with ⟨rfl, rfl, ⟨ht, rfl⟩ | ⟨ht, rfl⟩⟩ | ⟨⟨n, kind⟩, hmem, ht, hr⟩
  · exact .inr ⟨.rts, [], 0, 0, [], [], ⟨[], rfl, fun h => absurd rfl h⟩, rfl, by decide, .inl ⟨rfl, rfl⟩, .inl ⟨rfl, rfl⟩, trivial, .rts ht⟩
  · exact .inr ⟨.nop, [], 0, 0, [], [], ⟨[], rfl, fun h => absurd rfl h⟩, rfl, by decide, .inl ⟨rfl, rfl⟩, .inl ⟨rfl, rfl⟩, trivial, .nop ht⟩
  · have hk := table_ok _ hmem
    simp only at ht hr hk
    cases kind with
    | move =>
      simp only [kindOk, List.any_eq_true, Bool.and_eq_true, beq_iff_eq] at hk
      obtain ⟨sz, -, hn, hd⟩ := hk
      exact move_known (name_of ht hn) ((m68Dark_congr ht).trans hd) hr
    | movea =>
      simp only [kindOk, List.any_eq_true, Bool.and_eq_true, beq_iff_eq] at hk
      obtain ⟨sz, hm, hn, hd⟩ := hk
      exact movea_known (name_of ht hn) (by rintro rfl; simp at hm) ((m68Dark_congr ht).trans hd) hr
    | imm base st =>
      simp only [kindOk, List.any_eq_true, Bool.and_eq_true, beq_iff_eq] at hk
      obtain ⟨op, -, sz, -, ⟨⟨hn, hd⟩, rfl⟩, rfl⟩ := hk
      exact imm_known (name_of ht hn) ((m68Light_congr ht).trans hd) hr
    | lea =>
      simp only [kindOk, Bool.or_eq_true, beq_iff_eq] at hk
      refine lea_known ?_ hr
      rcases hk with e | e
      · exact .inl (e ▸ ht)
      · exact .inr (e ▸ ht)
    | jump base =>
      simp only [kindOk, Bool.or_eq_true, Bool.and_eq_true, beq_iff_eq] at hk
      rcases hk with ⟨e, rfl⟩ | ⟨e, rfl⟩
      · exact jump_known (j := true) (e ▸ ht) hr
      · exact jump_known (j := false) (e ▸ ht) hr
    | bcc =>
      simp only [kindOk, List.any_eq_true, Bool.or_eq_true, Bool.and_eq_true, beq_iff_eq, List.mem_range] at hk
      obtain ⟨k, hk16, hc, hn⟩ := hk
      refine bcc_known hk16 ((condIdx_congr ht 1).trans hc) ?_ hr
      rw [m68Dark_congr ht]
      rcases hn with ⟨e, hd⟩ | ⟨e, hd⟩
      · exact .inl ⟨e ▸ ht, hd⟩
      · exact .inr ⟨name_of ht e, hd⟩
    | dbcc =>
      simp only [kindOk, List.any_eq_true, Bool.or_eq_true, Bool.and_eq_true, beq_iff_eq, List.mem_range] at hk
      refine dbcc_known (hk.imp (fun e => (condIdx_congr ht 2).trans e) ?_) hr
      rintro ⟨k, hk16, hc, hn⟩
      exact ⟨k, hk16, (condIdx_congr ht 2).trans hc, hn.imp (name_of ht) fun e => ⟨e.1, name_of ht e.2⟩⟩

end Necro
