import Verif.Lemmas.Mips32
import Verif.Model.Cpu.Mc68000
import Verif.Spec.Mc68000
/-!
# Operand tokens of the 68000
-/

namespace Necro
open Spec

theorem upper_lower (t : Str) : upper (lower t) = upper t := by
  simp only [lower, upper, List.map_map]
  exact List.map_congr_left fun c _ => toUpper_toLower c

theorem lower_eq_iff {t r : Str} (hr : lower r = r) : lower t = r ↔ eqNoCase t r := by
  constructor
  · intro h
    show upper t = upper r
    rw [← h, upper_lower]
  · intro h
    have h : upper t = upper r := h
    rw [lower_eq_of_upper_eq h, hr]

theorem eqNoCase_pair {t : Str} {k d : Char} (h : eqNoCase t [k, d]) : ∃ a b, t = [a, b] ∧ a.toUpper = k.toUpper ∧ b.toUpper = d.toUpper := by
  have hl : t.length = 2 := by simpa using congrArg List.length h
  unfold eqNoCase at h
  match t, hl, h with
  | [a, b], _, h => simp at h; exact ⟨a, b, rfl, h.1, h.2⟩

theorem matches_coll (l : List Str) (t : Str) : (Pat.coll l).matches t = true ↔ ∃ r ∈ l, eqNoCase t r := by
  simp only [Pat.matches, List.any_eq_true, decide_eq_true_eq]
  rfl

theorem lt8 {n : Nat} (h : n < 8) : n = 0 ∨ n = 1 ∨ n = 2 ∨ n = 3 ∨ n = 4 ∨ n = 5 ∨ n = 6 ∨ n = 7 := by omega

theorem mem_m68A (r : Str) : r ∈ m68A ↔ ∃ n < 8, r = ['a', Nat.digitChar n] := by
  constructor
  · intro h
    have : ∀ r ∈ m68A, ∃ n < 8, r = ['a', Nat.digitChar n] := by decide +kernel
    exact this r h
  · rintro ⟨n, hn, rfl⟩
    have : ∀ n < 8, ['a', Nat.digitChar n] ∈ m68A := by decide +kernel
    exact this n hn

theorem mem_m68D (r : Str) : r ∈ m68D ↔ ∃ n < 8, r = ['d', Nat.digitChar n] := by
  constructor
  · intro h
    have : ∀ r ∈ m68D, ∃ n < 8, r = ['d', Nat.digitChar n] := by decide +kernel
    exact this r h
  · rintro ⟨n, hn, rfl⟩
    have : ∀ n < 8, ['d', Nat.digitChar n] ∈ m68D := by decide +kernel
    exact this n hn

theorem matches_m68A (t : Str) : (Pat.coll m68A).matches t = true ↔ ∃ n, M68Reg 'a' n t := by
  rw [matches_coll]
  constructor
  · rintro ⟨r, hr, h⟩
    obtain ⟨n, hn, rfl⟩ := (mem_m68A r).1 hr
    exact ⟨n, hn, h⟩
  · rintro ⟨n, hn, h⟩
    exact ⟨_, (mem_m68A _).2 ⟨n, hn, rfl⟩, h⟩

theorem matches_m68D (t : Str) : (Pat.coll m68D).matches t = true ↔ ∃ n, M68Reg 'd' n t := by
  rw [matches_coll]
  constructor
  · rintro ⟨r, hr, h⟩
    obtain ⟨n, hn, rfl⟩ := (mem_m68D r).1 hr
    exact ⟨n, hn, h⟩
  · rintro ⟨n, hn, h⟩
    exact ⟨_, (mem_m68D _).2 ⟨n, hn, rfl⟩, h⟩

theorem toUpper_digit {b : Char} {n : Nat} (hn : n < 8) (h : b.toUpper = (Nat.digitChar n).toUpper) : b = Nat.digitChar n := by
  have h1 : ∀ n < 8, (Nat.digitChar n).toUpper = Nat.digitChar n ∧ (Nat.digitChar n).isLower = false ∧ (Nat.digitChar n).toLower = Nat.digitChar n := by
    decide +kernel
  obtain ⟨e1, e2, e3⟩ := h1 n hn
  rw [e1] at h
  rcases toUpper_eq e2 h with h | h
  · exact h
  · rw [h, e3]

theorem Spec.M68Reg.shape {k : Char} {n : Nat} {t : Str} (h : M68Reg k n t) : ∃ a, t = [a, Nat.digitChar n] ∧ a.toUpper = k.toUpper := by
  obtain ⟨a, b, rfl, h1, h2⟩ := eqNoCase_pair h.2
  rw [toUpper_digit h.1 h2]
  exact ⟨a, rfl, h1⟩

theorem digitChar_inj {n k : Nat} (hn : n < 8) (hk : k < 8) (h : Nat.digitChar n = Nat.digitChar k) : n = k := by
  have : ∀ n < 8, ∀ k < 8, Nat.digitChar n = Nat.digitChar k → n = k := by decide +kernel
  exact this n hn k hk h

theorem Spec.M68Reg.unique {k : Char} {n n' : Nat} {t : Str} (h : M68Reg k n t) (h' : M68Reg k n' t) : n = n' := by
  obtain ⟨a, rfl, _⟩ := h.shape
  obtain ⟨b, h2, _⟩ := h'.shape
  simp only [List.cons.injEq, and_true] at h2
  exact digitChar_inj h.1 h'.1 h2.2

theorem m68Reg_digit {n : Nat} (hn : n < 8) (a : Char) (c : Ctx) : m68Reg [a, Nat.digitChar n] c = (.ok (n : Int), []) := by
  have : ∀ n < 8, pyInt 10 [Nat.digitChar n] = some (n : Int) := by decide +kernel
  unfold m68Reg
  simp only [List.drop_succ_cons, List.drop_zero, this n hn]
  rfl

theorem m68Reg_of {k : Char} {n : Nat} {t : Str} (h : M68Reg k n t) (c : Ctx) : m68Reg t c = (.ok (n : Int), []) := by
  obtain ⟨a, rfl, _⟩ := h.shape
  exact m68Reg_digit h.1 a c

/-! ## tokens that may be numbers -/

theorem lower_paren {t : Str} {p : Char} (h1 : p.isLower = false) (h2 : p.toLower = p) (h3 : p.toUpper = p) : lower t = [p] ↔ t = [p] := by
  constructor
  · intro h
    have : upper t = [p] := by rw [← upper_lower, h]; simp [upper, h3]
    rcases upper_single h1 this with h | h
    · exact h
    · rw [h, h2]
  · rintro rfl; simp [lower, h2]

theorem startsWith_hash (t : Str) : startsWith t ['#'] = true ↔ t.head? = some '#' := by
  unfold startsWith
  cases t with
  | nil => simp [List.isPrefixOf]
  | cons a t =>
    simp only [List.isPrefixOf, List.head?_cons, Option.some.injEq, Bool.and_true, beq_iff_eq]
    exact eq_comm

theorem m68Free_iff (t : Str) : m68IsDisp t = true ↔ M68Free t := by
  unfold m68IsDisp M68Free
  simp only [Bool.and_eq_true, Bool.not_eq_true', Bool.eq_false_iff, ne_eq, startsWith_hash, List.contains_iff_mem, List.mem_append,
    List.mem_cons, List.not_mem_nil, or_false, not_or]
  rw [lower_paren (p := '(') (by decide) (by decide) (by decide), lower_paren (p := ')') (by decide) (by decide) (by decide)]
  have hd : ∀ (k : Char) (n : Nat), n < 8 → k = 'd' ∨ k = 'a' → lower [k, Nat.digitChar n] = [k, Nat.digitChar n] := by
    have : ∀ n < 8, lower ['d', Nat.digitChar n] = ['d', Nat.digitChar n] ∧ lower ['a', Nat.digitChar n] = ['a', Nat.digitChar n] := by decide +kernel
    rintro k n hn (rfl | rfl)
    · exact (this n hn).1
    · exact (this n hn).2
  constructor
  · rintro ⟨⟨⟨h1, h2⟩, h3, h4⟩, h5⟩
    refine ⟨?_, h3, h4, h5⟩
    rintro k n (rfl | rfl) hr
    · exact h1 ((mem_m68D _).2 ⟨n, hr.1, (lower_eq_iff (hd _ n hr.1 (.inl rfl))).2 hr.2⟩)
    · exact h2 ((mem_m68A _).2 ⟨n, hr.1, (lower_eq_iff (hd _ n hr.1 (.inr rfl))).2 hr.2⟩)
  · rintro ⟨h1, h3, h4, h5⟩
    refine ⟨⟨⟨?_, ?_⟩, h3, h4⟩, h5⟩
    · intro h
      obtain ⟨n, hn, h⟩ := (mem_m68D _).1 h
      exact h1 'd' n (.inl rfl) ⟨hn, (lower_eq_iff (hd _ n hn (.inl rfl))).1 h⟩
    · intro h
      obtain ⟨n, hn, h⟩ := (mem_m68A _).1 h
      exact h1 'a' n (.inr rfl) ⟨hn, (lower_eq_iff (hd _ n hn (.inr rfl))).1 h⟩

theorem m68IsImm_iff (t : Str) : m68IsImm t = true ↔ ∃ v, v ≠ [] ∧ t = '#' :: v := by
  unfold m68IsImm
  simp only [Bool.and_eq_true, decide_eq_true_eq, startsWith_hash]
  cases t with
  | nil => simp
  | cons a t =>
    simp only [List.length_cons, List.head?_cons, Option.some.injEq, List.cons.injEq]
    constructor
    · rintro ⟨h1, rfl⟩
      refine ⟨t, ?_, rfl, rfl⟩
      rintro rfl; simp at h1
    · rintro ⟨v, hv, rfl, rfl⟩
      refine ⟨?_, rfl⟩
      have := List.length_pos_iff.2 hv
      omega

theorem endsWith_iff (t s : Str) : endsWith t s = true ↔ s <:+ t := by unfold endsWith; exact List.isSuffixOf_iff_suffix

/-- A suffix of two characters, in any case. -/
theorem lower_suffix {t s : Str} (hs : lower s = s) (hl : s.length = 2) :
    endsWith (lower t) s = true ↔ ∃ v u, t = v ++ u ∧ eqNoCase u s ∧ dropLast2 t = v := by
  rw [endsWith_iff]
  constructor
  · rintro ⟨p, hp⟩
    have hlen : t.length = p.length + 2 := by
      have := congrArg List.length hp
      simp [lower, hl] at this
      omega
    refine ⟨dropLast2 t, t.drop (t.length - 2), by simp [dropLast2], ?_, rfl⟩
    apply (lower_eq_iff hs).1
    have : lower (t.drop (t.length - 2)) = (lower t).drop (t.length - 2) := by simp [lower]
    rw [this, ← hp]
    rw [hlen]
    simp
  · rintro ⟨v, u, rfl, h, -⟩
    refine ⟨lower v, ?_⟩
    have h := (lower_eq_iff hs).2 h
    simp only [lower, List.map_append] at h ⊢
    rw [h]

theorem dropLast2_append {v u s : Str} (h : eqNoCase u s) (hl : s.length = 2) : dropLast2 (v ++ u) = v := by
  have : u.length = 2 := by
    have := congrArg List.length h
    simpa [hl] using this
  simp [dropLast2, this]

theorem m68IsAbsW_iff (t : Str) : m68IsAbsW t = true ↔ M68Free t ∧ ∃ v u, t = v ++ u ∧ eqNoCase u ".W".toList ∧ dropLast2 t = v := by
  unfold m68IsAbsW
  rw [Bool.and_eq_true, m68Free_iff, lower_suffix (s := ".w".toList) (by decide) rfl]
  rfl

theorem m68IsAbsL_iff (t : Str) : m68IsAbsL t = true ↔ M68Free t ∧ ∃ v u, t = v ++ u ∧ eqNoCase u ".L".toList ∧ dropLast2 t = v := by
  unfold m68IsAbsL
  rw [Bool.and_eq_true, m68Free_iff, lower_suffix (s := ".l".toList) (by decide) rfl]
  rfl

/-! ## index registers -/

/-- The fields of the index register. -/
def idxFields (x : M68Index) : Int × Int × Int := (if x.addr then 1 else 0, x.n, if x.long then 1 else 0)

theorem lower_two {n : Nat} (hn : n < 8) (a : Bool) :
    lower [if a then 'a' else 'd', Nat.digitChar n] = [if a then 'a' else 'd', Nat.digitChar n] := by
  have : ∀ n < 8, ∀ a : Bool, lower [if a then 'a' else 'd', Nat.digitChar n] = [if a then 'a' else 'd', Nat.digitChar n] := by decide +kernel
  exact this n hn a

theorem mem_regs (r : Str) : r ∈ m68D ++ m68A ↔ ∃ a : Bool, ∃ n < 8, r = [if a then 'a' else 'd', Nat.digitChar n] := by
  rw [List.mem_append, mem_m68A, mem_m68D]
  constructor
  · rintro (⟨n, hn, rfl⟩ | ⟨n, hn, rfl⟩)
    · exact ⟨false, n, hn, rfl⟩
    · exact ⟨true, n, hn, rfl⟩
  · rintro ⟨a, n, hn, rfl⟩
    cases a
    · exact .inl ⟨n, hn, rfl⟩
    · exact .inr ⟨n, hn, rfl⟩

theorem startsWith_d {a : Bool} {n : Nat} {t u : Str} (h : M68Reg (if a then 'a' else 'd') n t) :
    startsWith (lower (t ++ u)) ['d'] = !a := by
  obtain ⟨x, rfl, hx⟩ := h.shape
  have : x.toLower = if a then 'a' else 'd' := by
    rw [← toLower_toUpper, hx]
    cases a <;> decide
  cases a <;> simp [startsWith, lower, this, List.isPrefixOf]

theorem m68Idx_of {x : M68Index} {t : Str} (h : M68IndexText x t) (c : Ctx) :
    m68IsIdx t = true ∧ m68IdxReg t c = (.ok (idxFields x), []) := by
  cases h with
  | @sized a n l t hr hs =>
    have ht : t = t.take 2 ++ t.drop 2 := (List.take_append_drop 2 t).symm
    have hlow : lower (t.take 2) = [if a then 'a' else 'd', Nat.digitChar n] :=
      (lower_eq_iff (lower_two hr.1 a)).2 hr.2
    have hmem : (m68D ++ m68A).contains (lower (t.take 2)) = true := by
      rw [List.contains_iff_mem, hlow]; exact (mem_regs _).2 ⟨a, n, hr.1, rfl⟩
    have hst := startsWith_d (u := t.drop 2) hr
    rw [← ht] at hst
    cases l with
    | false =>
      have hs : eqNoCase (t.drop 2) ".w".toList := hs
      have he : endsWith (lower t) ".w".toList = true :=
        (lower_suffix (by decide) rfl).2 ⟨t.take 2, t.drop 2, ht, hs, by
          have := dropLast2_append (v := t.take 2) hs rfl; rwa [← ht] at this⟩
      have hdl : dropLast2 t = t.take 2 := by
        have := dropLast2_append (v := t.take 2) hs rfl; rwa [← ht] at this
      have hdl' : dropLast2 (lower t) = lower (t.take 2) := by
        have : dropLast2 (lower t) = lower (dropLast2 t) := by simp [dropLast2, lower]
        rw [this, hdl]
      constructor
      · unfold m68IsIdx
        rw [if_pos he, hdl', hmem]
      · unfold m68IdxReg
        simp only [he, if_true, hdl, hst]
        rw [H.bind_run (m68Reg_of hr c)]
        cases a <;> rfl
    | true =>
      have hs : eqNoCase (t.drop 2) ".l".toList := hs
      have hdl : dropLast2 t = t.take 2 := by
        have := dropLast2_append (v := t.take 2) hs rfl; rwa [← ht] at this
      have he : endsWith (lower t) ".l".toList = true :=
        (lower_suffix (by decide) rfl).2 ⟨t.take 2, t.drop 2, ht, hs, hdl⟩
      have hne : endsWith (lower t) ".w".toList = false := by
        rw [Bool.eq_false_iff]
        intro h
        obtain ⟨v, u, h1, h2, h3⟩ := (lower_suffix (by decide) rfl).1 h
        rw [hdl] at h3
        rw [← h3] at h1
        have h4 := List.append_cancel_left (ht.symm.trans h1)
        rw [← h4] at h2
        have h5 : upper ".l".toList = upper ".w".toList := hs.symm.trans h2
        exact absurd h5 (by decide)
      have hdl' : dropLast2 (lower t) = lower (t.take 2) := by
        have : dropLast2 (lower t) = lower (dropLast2 t) := by simp [dropLast2, lower]
        rw [this, hdl]
      constructor
      · unfold m68IsIdx
        rw [if_neg (by rw [hne]; simp), if_pos he, hdl', hmem]
      · unfold m68IdxReg
        simp only [he, if_true, hdl, hst, hne, Bool.false_eq_true, if_false]
        rw [H.bind_run (m68Reg_of hr c)]
        cases a <;> rfl
  | @plain a n hn =>
    have hlow := lower_two hn a
    have hno : ∀ s : Str, s = ".w".toList ∨ s = ".l".toList → endsWith [if a then 'a' else 'd', Nat.digitChar n] s = false := by
      have : ∀ n < 8, ∀ a : Bool, endsWith [if a then 'a' else 'd', Nat.digitChar n] ".w".toList = false ∧
        endsWith [if a then 'a' else 'd', Nat.digitChar n] ".l".toList = false := by decide +kernel
      rintro s (rfl | rfl)
      · exact (this n hn a).1
      · exact (this n hn a).2
    constructor
    · unfold m68IsIdx
      rw [hlow, hno _ (.inl rfl), hno _ (.inr rfl)]
      simp only [Bool.false_eq_true, if_false]
      rw [List.contains_iff_mem]
      exact (mem_regs _).2 ⟨a, n, hn, rfl⟩
    · unfold m68IdxReg
      rw [hlow, hno _ (.inl rfl), hno _ (.inr rfl)]
      simp only [Bool.false_eq_true, if_false]
      rw [H.bind_run (m68Reg_digit hn _ c)]
      cases a <;> rfl

theorem m68Idx_ok {t : Str} (h : m68IsIdx t = true) : ∃ x, M68IndexText x t ∧ x.n < 8 := by
  have key : ∀ s : Str, s.length = 2 → lower s = s → endsWith (lower t) s = true → (m68D ++ m68A).contains (dropLast2 (lower t)) = true →
      ∃ (a : Bool) (n : Nat), M68Reg (if a then 'a' else 'd') n (t.take 2) ∧ eqNoCase (t.drop 2) s := by
    intro s hl hs he hm
    rw [List.contains_iff_mem] at hm
    obtain ⟨a, n, hn, hr⟩ := (mem_regs _).1 hm
    obtain ⟨v, u, rfl, hu, hd⟩ := (lower_suffix hs hl).1 he
    have : dropLast2 (lower (v ++ u)) = lower (dropLast2 (v ++ u)) := by simp [dropLast2, lower]
    rw [this, hd] at hr
    have hvl : v.length = 2 := by
      have := congrArg List.length hr
      simpa [lower] using this
    refine ⟨a, n, ?_, ?_⟩
    · rw [List.take_append, List.take_of_length_le (by omega), hvl]
      simp only [Nat.sub_self, List.take_zero, List.append_nil]
      exact ⟨hn, (lower_eq_iff (lower_two hn a)).1 hr⟩
    · rw [List.drop_append, List.drop_of_length_le (by omega), hvl]
      simpa using hu
  unfold m68IsIdx at h
  split at h
  · next he =>
    obtain ⟨a, n, h1, h2⟩ := key _ rfl (by decide) he h
    exact ⟨⟨a, n, false⟩, .sized h1 h2, h1.1⟩
  · split at h
    · next he =>
      obtain ⟨a, n, h1, h2⟩ := key _ rfl (by decide) he h
      exact ⟨⟨a, n, true⟩, .sized h1 h2, h1.1⟩
    · rw [List.contains_iff_mem] at h
      obtain ⟨a, n, hn, rfl⟩ := (mem_regs _).1 h
      exact ⟨⟨a, n, false⟩, .plain hn, hn⟩

/-! ## names taken as collections of letters -/

theorem matches_char (a : Str) (p : Char) (h1 : p.isLower = false) (h2 : p.toUpper = p) (h3 : p.toLower = p) :
    (Pat.str [p]).matches a = true ↔ a = [p] := by
  simp only [Pat.matches, List.any_cons, List.any_nil, Bool.or_false, Bool.or_self, decide_eq_true_eq]
  constructor
  · intro h
    have : upper a = [p] := by rw [h]; simp [upper, h2]
    rcases upper_single h1 this with h | h
    · exact h
    · rw [h, h3]
  · rintro rfl; rfl

theorem matches_name (t : Str) (s : String) : (Pat.str s.toList).matches t = true ↔ eqNoCase t s.toList ∨ M68Letter t s := by
  simp only [Pat.matches, Bool.or_eq_true, decide_eq_true_eq, List.any_eq_true]
  rfl

end Necro
