import Verif.Lemmas.M68Text
/-!
# The addressing modes of the 68000
-/

namespace Necro
open Spec

/-- An operand whose number is still a token. -/
inductive EaForm where
  | dn (n : Nat)
  | an (n : Nat)
  | ind (n : Nat)
  | post (n : Nat)
  | pre (n : Nat)
  | disp (t : Str) (n : Nat)
  | idx (t : Str) (n : Nat) (x : M68Index)
  | pcDisp (t : Str)
  | pcIdx (t : Str) (x : M68Index)
  | absW (t : Str)
  | absL (t : Str)
  | imm (t : Str)

namespace EaForm

def mode : EaForm → M68Mode
  | .dn _ => .dn
  | .an _ => .an
  | .ind _ => .ind
  | .post _ => .post
  | .pre _ => .pre
  | .disp _ _ => .disp
  | .idx _ _ _ => .idx
  | .pcDisp _ => .pcDisp
  | .pcIdx _ _ => .pcIdx
  | .absW _ => .absW
  | .absL _ => .absL
  | .imm _ => .imm

/-- The tokens of the operand. -/
inductive Text : EaForm → List Str → Prop
  | dn {n t} : M68Reg 'd' n t → Text (.dn n) [t]
  | an {n t} : M68Reg 'a' n t → Text (.an n) [t]
  | ind {n t} : M68Reg 'a' n t → Text (.ind n) [['('], t, [')']]
  | post {n t} : M68Reg 'a' n t → Text (.post n) [['('], t, [')'], ['+']]
  | pre {n t} : M68Reg 'a' n t → Text (.pre n) [['-'], ['('], t, [')']]
  | disp {v n t} : M68Free v → M68Reg 'a' n t → Text (.disp v n) [['('], v, t, [')']]
  | idx {v n x t u} : M68Free v → M68Reg 'a' n t → M68IndexText x u → Text (.idx v n x) [['('], v, t, u, [')']]
  | pcDisp {v p} : M68Free v → eqNoCase p "PC".toList → Text (.pcDisp v) [['('], v, p, [')']]
  | pcIdx {v x p u} : M68Free v → eqNoCase p "PC".toList → M68IndexText x u → Text (.pcIdx v x) [['('], v, p, u, [')']]
  | absW {v s} : M68Free v → eqNoCase s ".W".toList → Text (.absW v) [['('], v, [')'], s]
  | absL {v s} : M68Free v → eqNoCase s ".L".toList → Text (.absL v) [['('], v, [')'], s]
  | imm {v} : v ≠ [] → Text (.imm v) ['#' :: v]
  | absW' {v s} : M68Free (v ++ s) → eqNoCase s ".W".toList → Text (.absW v) [v ++ s]
  | absL' {v s} : M68Free (v ++ s) → eqNoCase s ".L".toList → Text (.absL v) [v ++ s]
  | abs {v} : M68Free v → (∀ u s, v = u ++ s → ¬ eqNoCase s ".W".toList ∧ ¬ eqNoCase s ".L".toList) → Text (.absL v) [v]

/-- What `_mode` does once it has recognised the operand. -/
def run (size off i : Nat) : EaForm → H M68Operand
  | .dn n => pure ⟨i, 0, n, []⟩
  | .an n => pure ⟨i, 1, n, []⟩
  | .ind n => pure ⟨i, 2, n, []⟩
  | .post n => pure ⟨i, 3, n, []⟩
  | .pre n => pure ⟨i, 4, n, []⟩
  | .disp t n => do
    let v ← H.parseIntegerOrLabel { label := t, size := 2, bitsSize := 16, offset := 2 + off } true
    let b ← H.lift (packBe16u [some v])
    pure ⟨i, 5, n, b⟩
  | .idx t n x => do
    let v ← H.parseIntegerOrLabel { label := t, size := 2, bitsSize := 8, bits := some (7, 0), offset := 2 + off } true
    let b ← H.lift (packBitsBe16u 0 [⟨15, 15, (idxFields x).1⟩, ⟨14, 12, (idxFields x).2.1⟩, ⟨11, 11, (idxFields x).2.2⟩, ⟨7, 0, v⟩])
    pure ⟨i, 6, n, b⟩
  | .pcDisp t => do
    let c ← H.read
    let v ← H.parseIntegerOrLabel { label := t, size := 2, bitsSize := 16, relative := c.pc + 2 + off, offset := 2 + off }
    let b ← H.lift (packBe16u [some v])
    pure ⟨i, 7, 2, b⟩
  | .pcIdx t x => do
    let c ← H.read
    let v ← H.parseIntegerOrLabel { label := t, size := 2, bitsSize := 8, bits := some (7, 0), relative := c.pc + 2 + off, offset := 2 + off }
    let b ← H.lift (packBitsBe16u 0 [⟨15, 15, (idxFields x).1⟩, ⟨14, 12, (idxFields x).2.1⟩, ⟨11, 11, (idxFields x).2.2⟩, ⟨7, 0, v⟩])
    pure ⟨i, 7, 3, b⟩
  | .absW t => do
    let v ← H.parseIntegerOrLabel { label := t, size := 2, bitsSize := 16, offset := 2 + off }
    let b ← H.lift (packBe16u [some v])
    pure ⟨i, 7, 0, b⟩
  | .absL t => do
    let v ← H.parseIntegerOrLabel { label := t, size := 4, bitsSize := 32, offset := 2 + off }
    let b ← H.lift (packBe32u [some v])
    pure ⟨i, 7, 1, b⟩
  | .imm t => do
    let b ← m68Packer t size off
    pure ⟨i, 7, 4, b⟩

end EaForm

/-- A letter of a name in its place. -/
def OddShape (l : List Str) : Prop :=
  (∃ v t post, l = ['('] :: v :: t :: post ∧ M68Letter t "PC") ∨
  (∃ v t post, l = ['('] :: v :: [')'] :: t :: post ∧ M68Letter t ".WL")

theorem matchPrefix_length {l : List Str} {ps : List Pat} (h : matchPrefix l ps = true) : ps.length ≤ l.length := by
  induction ps generalizing l with
  | nil => simp
  | cons p ps ih =>
    cases l with
    | nil => simp [matchPrefix] at h
    | cons t ts =>
      simp only [matchPrefix, Bool.and_eq_true] at h
      have := ih h.2
      simp only [List.length_cons]; omega

theorem unbound_eq (tokens : List Str) (p : Pat) (ps : List Pat) (start : Nat) :
    instrUnboundMatch tokens (p :: ps) start = if matchPrefix (tokens.drop start) (p :: ps) then some (start + (ps.length + 1)) else none := by
  unfold instrUnboundMatch
  by_cases h : (p :: ps).length + start ≤ tokens.length
  · rw [if_pos h]; rfl
  · rw [if_neg h]
    split
    · next hm =>
      have := matchPrefix_length hm
      simp only [List.length_cons, List.length_drop] at this h
      omega
    · rfl

theorem getD_drop (tokens : List Str) (start i : Nat) : tokens.getD (start + i) [] = (tokens.drop start).getD i [] := by
  simp [List.getD_eq_getElem?_getD, List.getElem?_drop]

theorem m68Try_ok {tokens : List Str} {start : Nat} {black : List M68Mode} {mode : M68Mode} {p : Pat} {ps : List Pat} {body : Nat → H α} {next : H α}
    {c : Ctx} {x : α} {rels : List Reloc} (h : m68Try tokens start black mode (p :: ps) body next c = (.ok x, rels)) :
    (matchPrefix (tokens.drop start) (p :: ps) = true ∧ mode ∉ black ∧ body (start + (ps.length + 1)) c = (.ok x, rels)) ∨
    (¬ (matchPrefix (tokens.drop start) (p :: ps) = true ∧ mode ∉ black) ∧ next c = (.ok x, rels)) := by
  unfold m68Try at h
  rw [unbound_eq] at h
  by_cases hm : matchPrefix (tokens.drop start) (p :: ps) = true
  · rw [if_pos hm] at h
    simp only at h
    by_cases hb : black.contains mode = true
    · rw [if_pos hb] at h
      refine .inr ⟨?_, h⟩
      rintro ⟨-, h2⟩
      exact h2 (List.contains_iff_mem.1 hb)
    · rw [if_neg hb] at h
      exact .inl ⟨hm, fun h2 => hb (List.contains_iff_mem.2 h2), h⟩
  · rw [if_neg hm] at h
    exact .inr ⟨fun h2 => hm h2.1, h⟩

theorem m68Try_yes {tokens : List Str} {start : Nat} {black : List M68Mode} {mode : M68Mode} {p : Pat} {ps : List Pat} {body : Nat → H α} {next : H α}
    {c : Ctx} (hm : matchPrefix (tokens.drop start) (p :: ps) = true) (hb : mode ∉ black) :
    m68Try tokens start black mode (p :: ps) body next c = body (start + (ps.length + 1)) c := by
  unfold m68Try
  rw [unbound_eq, if_pos hm]
  simp only
  rw [if_neg (fun h => hb (List.contains_iff_mem.1 h))]

theorem m68Try_no {tokens : List Str} {start : Nat} {black : List M68Mode} {mode : M68Mode} {p : Pat} {ps : List Pat} {body : Nat → H α} {next : H α}
    {c : Ctx} (hm : matchPrefix (tokens.drop start) (p :: ps) = false) :
    m68Try tokens start black mode (p :: ps) body next c = next c := by
  unfold m68Try
  rw [unbound_eq, if_neg (by rw [hm]; simp)]

theorem matchPrefix1 {l : List Str} {p : Pat} (h : matchPrefix l [p] = true) : ∃ a r, l = a :: r ∧ p.matches a = true := by
  match l, h with
  | a :: r, h => simp [matchPrefix] at h; exact ⟨a, r, rfl, h⟩

theorem matchPrefix3 {l : List Str} {p q r : Pat} (h : matchPrefix l [p, q, r] = true) :
    ∃ a b c e, l = a :: b :: c :: e ∧ p.matches a = true ∧ q.matches b = true ∧ r.matches c = true := by
  match l, h with
  | a :: b :: c :: e, h => simp [matchPrefix] at h; exact ⟨a, b, c, e, rfl, h⟩
  | [a, b], h => simp [matchPrefix] at h
  | [a], h => simp [matchPrefix] at h

theorem matchPrefix4 {l : List Str} {p q r s : Pat} (h : matchPrefix l [p, q, r, s] = true) :
    ∃ a b c d e, l = a :: b :: c :: d :: e ∧ p.matches a = true ∧ q.matches b = true ∧ r.matches c = true ∧ s.matches d = true := by
  match l, h with
  | a :: b :: c :: d :: e, h => simp [matchPrefix] at h; exact ⟨a, b, c, d, e, rfl, h⟩
  | [a, b, c], h => simp [matchPrefix] at h
  | [a, b], h => simp [matchPrefix] at h
  | [a], h => simp [matchPrefix] at h

theorem matchPrefix5 {l : List Str} {p q r s u : Pat} (h : matchPrefix l [p, q, r, s, u] = true) :
    ∃ a b c d f e, l = a :: b :: c :: d :: f :: e ∧ p.matches a = true ∧ q.matches b = true ∧ r.matches c = true ∧ s.matches d = true ∧
      u.matches f = true := by
  match l, h with
  | a :: b :: c :: d :: f :: e, h => simp [matchPrefix] at h; exact ⟨a, b, c, d, f, e, rfl, h⟩
  | [a, b, c, d], h => simp [matchPrefix] at h
  | [a, b, c], h => simp [matchPrefix] at h
  | [a, b], h => simp [matchPrefix] at h
  | [a], h => simp [matchPrefix] at h

theorem matches_lp (a : Str) : (Pat.str ['(']).matches a = true ↔ a = ['('] := matches_char a _ (by decide) (by decide) (by decide)
theorem matches_rp (a : Str) : (Pat.str [')']).matches a = true ↔ a = [')'] := matches_char a _ (by decide) (by decide) (by decide)
theorem matches_plus (a : Str) : (Pat.str ['+']).matches a = true ↔ a = ['+'] := matches_char a _ (by decide) (by decide) (by decide)
theorem matches_minus (a : Str) : (Pat.str ['-']).matches a = true ↔ a = ['-'] := matches_char a _ (by decide) (by decide) (by decide)
theorem matches_disp (a : Str) : (Pat.pred m68IsDisp).matches a = true ↔ M68Free a := m68Free_iff a

theorem letter_mono {t : Str} {s u : String} (h : M68Letter t s) (hs : ∀ c ∈ s.toList, c ∈ u.toList) : M68Letter t u := by
  obtain ⟨c, hc, h⟩ := h
  exact ⟨c, hs c hc, h⟩

theorem H.bind_eq {m : H α} {f g : α → H β} {c : Ctx} (h : ∀ a, f a c = g a c) : (m >>= f) c = (m >>= g) c := by
  show H.bind m f c = H.bind m g c
  unfold H.bind
  split
  · rw [h]
  · rfl

theorem body_reg {k : Char} {u : Str} {n i m : Nat} (h : M68Reg k n u) (c : Ctx) :
    (do let r ← m68Reg u
        pure (⟨i, m, r, []⟩ : M68Operand) : H M68Operand) c = (pure (⟨i, m, n, []⟩ : M68Operand) : H M68Operand) c := by
  rw [H.bind_run (m68Reg_of h c)]

/-- The bodies of `_mode` on the tokens of a form. -/
theorem body_disp {t u : Str} {n off i : Nat} (h : M68Reg 'a' n u) (c : Ctx) :
    (do let v ← H.parseIntegerOrLabel { label := t, size := 2, bitsSize := 16, offset := 2 + off } true
        let r ← m68Reg u
        let b ← H.lift (packBe16u [some v])
        pure (⟨i, 5, r, b⟩ : M68Operand) : H M68Operand) c = EaForm.run 0 off i (.disp t n) c := by
  unfold EaForm.run
  apply H.bind_eq
  intro v
  rw [H.bind_run (m68Reg_of h c)]

theorem body_idx {t u w : Str} {n off i : Nat} {x : M68Index} (h : M68Reg 'a' n u) (hx : M68IndexText x w) (c : Ctx) :
    (do let v ← H.parseIntegerOrLabel { label := t, size := 2, bitsSize := 8, bits := some (7, 0), offset := 2 + off } true
        let y ← m68IdxReg w
        let r ← m68Reg u
        let b ← H.lift (packBitsBe16u 0 [⟨15, 15, y.1⟩, ⟨14, 12, y.2.1⟩, ⟨11, 11, y.2.2⟩, ⟨7, 0, v⟩])
        pure (⟨i, 6, r, b⟩ : M68Operand) : H M68Operand) c = EaForm.run 0 off i (.idx t n x) c := by
  unfold EaForm.run
  apply H.bind_eq
  intro v
  rw [H.bind_run (m68Idx_of hx c).2, H.bind_run (m68Reg_of h c)]

theorem body_pcIdx {t w : Str} {off i : Nat} {x : M68Index} (hx : M68IndexText x w) (c : Ctx) :
    (do let c ← H.read
        let v ← H.parseIntegerOrLabel { label := t, size := 2, bitsSize := 8, bits := some (7, 0), relative := c.pc + 2 + off, offset := 2 + off }
        let y ← m68IdxReg w
        let b ← H.lift (packBitsBe16u 0 [⟨15, 15, y.1⟩, ⟨14, 12, y.2.1⟩, ⟨11, 11, y.2.2⟩, ⟨7, 0, v⟩])
        pure (⟨i, 7, 3, b⟩ : M68Operand) : H M68Operand) c = EaForm.run 0 off i (.pcIdx t x) c := by
  unfold EaForm.run
  apply H.bind_eq
  intro c'
  apply H.bind_eq
  intro v
  rw [H.bind_run (m68Idx_of hx c).2]

theorem mode_cases {tokens : List Str} {start off size : Nat} {black : List M68Mode} {c : Ctx} {o : M68Operand} {rels : List Reloc}
    (h : m68Mode tokens start off size black c = (.ok o, rels)) (hw : M68Mode.absW ∉ black) (hl : M68Mode.absL ∉ black) :
    ∃ f used extra, tokens.drop start = used ++ extra ∧ f.mode ∉ black ∧
      EaForm.run size off (start + used.length) f c = (.ok o, rels) ∧ (f.Text used ∨ OddShape (tokens.drop start)) := by
  unfold m68Mode at h
  simp only [getD_drop] at h
  generalize hL : tokens.drop start = L at h ⊢
  rcases m68Try_ok h with ⟨hm, hb, h⟩ | ⟨-, h⟩
  · rw [hL] at hm
    obtain ⟨a, r, rfl, h1⟩ := matchPrefix1 hm
    obtain ⟨n, hn⟩ := (matches_m68D a).1 h1
    exact ⟨.dn n, [a], r, rfl, hb, (body_reg hn c).symm.trans h, .inl (.dn hn)⟩
  rcases m68Try_ok h with ⟨hm, hb, h⟩ | ⟨-, h⟩
  · rw [hL] at hm
    obtain ⟨a, r, rfl, h1⟩ := matchPrefix1 hm
    obtain ⟨n, hn⟩ := (matches_m68A a).1 h1
    exact ⟨.an n, [a], r, rfl, hb, (body_reg hn c).symm.trans h, .inl (.an hn)⟩
  rcases m68Try_ok h with ⟨hm, hb, h⟩ | ⟨-, h⟩
  · rw [hL] at hm
    obtain ⟨a1, a2, a3, a4, r, rfl, h1, h2, h3, h4⟩ := matchPrefix4 hm
    rw [matches_lp] at h1; rw [matches_rp] at h3; rw [matches_plus] at h4
    subst h1 h3 h4
    obtain ⟨n, hn⟩ := (matches_m68A a2).1 h2
    exact ⟨.post n, [_, a2, _, _], r, rfl, hb, (body_reg hn c).symm.trans h, .inl (.post hn)⟩
  rcases m68Try_ok h with ⟨hm, hb, h⟩ | ⟨-, h⟩
  · rw [hL] at hm
    obtain ⟨a1, a2, a3, r, rfl, h1, h2, h3⟩ := matchPrefix3 hm
    rw [matches_lp] at h1; rw [matches_rp] at h3
    subst h1 h3
    obtain ⟨n, hn⟩ := (matches_m68A a2).1 h2
    exact ⟨.ind n, [_, a2, _], r, rfl, hb, (body_reg hn c).symm.trans h, .inl (.ind hn)⟩
  rcases m68Try_ok h with ⟨hm, hb, h⟩ | ⟨-, h⟩
  · rw [hL] at hm
    obtain ⟨a1, a2, a3, a4, r, rfl, h1, h2, h3, h4⟩ := matchPrefix4 hm
    rw [matches_minus] at h1; rw [matches_lp] at h2; rw [matches_rp] at h4
    subst h1 h2 h4
    obtain ⟨n, hn⟩ := (matches_m68A a3).1 h3
    exact ⟨.pre n, [_, _, a3, _], r, rfl, hb, (body_reg hn c).symm.trans h, .inl (.pre hn)⟩
  rcases m68Try_ok h with ⟨hm, hb, h⟩ | ⟨-, h⟩
  · rw [hL] at hm
    obtain ⟨a1, a2, a3, a4, r, rfl, h1, h2, h3, h4⟩ := matchPrefix4 hm
    rw [matches_lp] at h1; rw [matches_disp] at h2; rw [matches_rp] at h4
    subst h1 h4
    obtain ⟨n, hn⟩ := (matches_m68A a3).1 h3
    exact ⟨.disp a2 n, [_, a2, a3, _], r, rfl, hb, (body_disp hn c).symm.trans h, .inl (.disp h2 hn)⟩
  rcases m68Try_ok h with ⟨hm, hb, h⟩ | ⟨-, h⟩
  · rw [hL] at hm
    obtain ⟨a1, a2, a3, a4, a5, r, rfl, h1, h2, h3, h4, h5⟩ := matchPrefix5 hm
    rw [matches_lp] at h1; rw [matches_disp] at h2; rw [matches_rp] at h5
    subst h1 h5
    obtain ⟨n, hn⟩ := (matches_m68A a3).1 h3
    obtain ⟨x, hx, -⟩ := m68Idx_ok h4
    exact ⟨.idx a2 n x, [_, a2, a3, a4, _], r, rfl, hb, (body_idx hn hx c).symm.trans h, .inl (.idx h2 hn hx)⟩
  rcases m68Try_ok h with ⟨hm, hb, h⟩ | ⟨-, h⟩
  · rw [hL] at hm
    obtain ⟨a1, a2, a3, a4, r, rfl, h1, h2, h3, h4⟩ := matchPrefix4 hm
    rw [matches_lp] at h1; rw [matches_disp] at h2; rw [matches_rp] at h4
    subst h1 h4
    refine ⟨.pcDisp a2, [_, a2, a3, _], r, rfl, hb, h, ?_⟩
    rcases (matches_name a3 "PC").1 h3 with h3 | h3
    · exact .inl (.pcDisp h2 h3)
    · exact .inr (.inl ⟨_, _, _, rfl, h3⟩)
  rcases m68Try_ok h with ⟨hm, hb, h⟩ | ⟨-, h⟩
  · rw [hL] at hm
    obtain ⟨a1, a2, a3, a4, a5, r, rfl, h1, h2, h3, h4, h5⟩ := matchPrefix5 hm
    rw [matches_lp] at h1; rw [matches_disp] at h2; rw [matches_rp] at h5
    subst h1 h5
    obtain ⟨x, hx, -⟩ := m68Idx_ok h4
    refine ⟨.pcIdx a2 x, [_, a2, a3, a4, _], r, rfl, hb, (body_pcIdx hx c).symm.trans h, ?_⟩
    rcases (matches_name a3 "PC").1 h3 with h3 | h3
    · exact .inl (.pcIdx h2 h3 hx)
    · exact .inr (.inl ⟨_, _, _, rfl, h3⟩)
  rcases m68Try_ok h with ⟨hm, hb, h⟩ | ⟨-, h⟩
  · rw [hL] at hm
    obtain ⟨a1, a2, a3, a4, r, rfl, h1, h2, h3, h4⟩ := matchPrefix4 hm
    rw [matches_lp] at h1; rw [matches_disp] at h2; rw [matches_rp] at h3
    subst h1 h3
    refine ⟨.absW a2, [_, a2, _, a4], r, rfl, hb, h, ?_⟩
    rcases (matches_name a4 ".W").1 h4 with h4 | h4
    · exact .inl (.absW h2 h4)
    · exact .inr (.inr ⟨_, _, _, rfl, letter_mono h4 (by decide)⟩)
  rcases m68Try_ok h with ⟨hm, hb, h⟩ | ⟨-, h⟩
  · rw [hL] at hm
    obtain ⟨a1, a2, a3, a4, r, rfl, h1, h2, h3, h4⟩ := matchPrefix4 hm
    rw [matches_lp] at h1; rw [matches_disp] at h2; rw [matches_rp] at h3
    subst h1 h3
    refine ⟨.absL a2, [_, a2, _, a4], r, rfl, hb, h, ?_⟩
    rcases (matches_name a4 ".L").1 h4 with h4 | h4
    · exact .inl (.absL h2 h4)
    · exact .inr (.inr ⟨_, _, _, rfl, letter_mono h4 (by decide)⟩)
  rcases m68Try_ok h with ⟨hm, hb, h⟩ | ⟨-, h⟩
  · rw [hL] at hm
    obtain ⟨a1, r, rfl, h1⟩ := matchPrefix1 hm
    obtain ⟨v, hv, rfl⟩ := (m68IsImm_iff a1).1 h1
    exact ⟨.imm v, [_], r, rfl, hb, h, .inl (.imm hv)⟩
  rcases m68Try_ok h with ⟨hm, hb, h⟩ | ⟨hno, h⟩
  · rw [hL] at hm
    obtain ⟨a1, r, rfl, h1⟩ := matchPrefix1 hm
    obtain ⟨hf, v, u, rfl, hu, hd⟩ := (m68IsAbsW_iff a1).1 h1
    simp only [List.getD_cons_zero, hd] at h
    exact ⟨.absW v, [_], r, rfl, hb, h, .inl (.absW' hf hu)⟩
  rcases m68Try_ok h with ⟨hm, hb, h⟩ | ⟨hno', h⟩
  · rw [hL] at hm
    obtain ⟨a1, r, rfl, h1⟩ := matchPrefix1 hm
    obtain ⟨hf, v, u, rfl, hu, hd⟩ := (m68IsAbsL_iff a1).1 h1
    simp only [List.getD_cons_zero, hd] at h
    exact ⟨.absL v, [_], r, rfl, hb, h, .inl (.absL' hf hu)⟩
  rcases m68Try_ok h with ⟨hm, hb, h⟩ | ⟨-, h⟩
  · rw [hL] at hm hno hno'
    obtain ⟨a1, r, rfl, h1⟩ := matchPrefix1 hm
    rw [matches_disp] at h1
    refine ⟨.absL a1, [_], r, rfl, hb, h, .inl (.abs h1 ?_)⟩
    intro u s hs
    constructor
    · intro hc
      refine hno ⟨?_, hw⟩
      simp only [matchPrefix, Bool.and_true]
      exact (m68IsAbsW_iff a1).2 ⟨h1, u, s, hs, hc, by rw [hs]; exact dropLast2_append hc rfl⟩
    · intro hc
      refine hno' ⟨?_, hl⟩
      simp only [matchPrefix, Bool.and_true]
      exact (m68IsAbsL_iff a1).2 ⟨h1, u, s, hs, hc, by rw [hs]; exact dropLast2_append hc rfl⟩
  cases h

/-! ## the converse -/

theorem notA {t : Str} (h : ∀ n, ¬ M68Reg 'a' n t) : (Pat.coll m68A).matches t = false := by
  rw [Bool.eq_false_iff]; intro hm
  obtain ⟨n, hn⟩ := (matches_m68A t).1 hm
  exact h n hn

theorem notD {t : Str} (h : ∀ n, ¬ M68Reg 'd' n t) : (Pat.coll m68D).matches t = false := by
  rw [Bool.eq_false_iff]; intro hm
  obtain ⟨n, hn⟩ := (matches_m68D t).1 hm
  exact h n hn

theorem char_false {p : Char} {t : Str} (h1 : p.isLower = false) (h2 : p.toUpper = p) (h3 : p.toLower = p) (h : t ≠ [p]) :
    (Pat.str [p]).matches t = false := by
  rw [Bool.eq_false_iff]; intro hm
  exact h ((matches_char t p h1 h2 h3).1 hm)

/-- An address register is not a data register and not a free token. -/
theorem areg_facts {n : Nat} {t : Str} (h : M68Reg 'a' n t) :
    (Pat.coll m68A).matches t = true ∧ (Pat.coll m68D).matches t = false ∧ m68IsDisp t = false ∧ t ≠ ['('] ∧ t ≠ ['-'] := by
  refine ⟨(matches_m68A t).2 ⟨n, h⟩, notD ?_, ?_, ?_, ?_⟩
  · intro k hk
    obtain ⟨a, rfl, ha⟩ := h.shape
    obtain ⟨b, hb, hb'⟩ := hk.shape
    simp only [List.cons.injEq, and_true] at hb
    rw [hb.1, hb'] at ha
    exact absurd ha (by decide)
  · rw [Bool.eq_false_iff, ne_eq, m68Free_iff]
    exact fun hf => hf.1 'a' n (.inr rfl) h
  · obtain ⟨a, rfl, ha⟩ := h.shape
    simp
  · obtain ⟨a, rfl, ha⟩ := h.shape
    simp

theorem free_facts {t : Str} (h : M68Free t) :
    (Pat.coll m68A).matches t = false ∧ (Pat.coll m68D).matches t = false ∧ m68IsDisp t = true ∧ (Pat.str ['(']).matches t = false ∧
      m68IsImm t = false := by
  refine ⟨notA fun n => h.1 'a' n (.inr rfl), notD fun n => h.1 'd' n (.inl rfl), (m68Free_iff t).2 h,
    char_false (by decide) (by decide) (by decide) h.2.1, ?_⟩
  rw [Bool.eq_false_iff, ne_eq, m68IsImm_iff]
  rintro ⟨v, -, rfl⟩
  exact h.2.2.2 rfl

theorem pc_facts {t : Str} (h : eqNoCase t "PC".toList) : (Pat.coll m68A).matches t = false ∧ (Pat.str "PC".toList).matches t = true := by
  refine ⟨notA ?_, (matches_name t "PC").2 (.inl h)⟩
  intro n hn
  have := hn.2.symm.trans h
  have h8 := hn.1
  have h0 : ∀ n < 8, ¬ eqNoCase ['a', Nat.digitChar n] "PC".toList := by
    unfold eqNoCase; decide +kernel
  exact h0 n h8 this

theorem idx_ne {x : M68Index} {u : Str} (h : M68IndexText x u) : (Pat.str [')']).matches u = false := by
  apply char_false (by decide) (by decide) (by decide)
  intro hu
  have hl : 2 ≤ u.length := by
    cases h with
    | sized h _ =>
      obtain ⟨a, h, _⟩ := h.shape
      have := congrArg List.length h
      simp at this; omega
    | plain => simp
  rw [hu] at hl
  simp at hl

/-- `_mode` on the tokens of a form. -/
theorem mode_of {tokens : List Str} {start off size : Nat} {black : List M68Mode} {c : Ctx} {f : EaForm} {used extra : List Str}
    (hL : tokens.drop start = used ++ extra) (hb : f.mode ∉ black) (ht : f.Text used) (hp : extra.head? ≠ some ['+'])
    (hm : used.head? = some ['-'] → f.mode = .pre) :
    m68Mode tokens start off size black c = EaForm.run size off (start + used.length) f c := by
  unfold m68Mode
  simp only [getD_drop]
  cases ht with
  | @dn n t hn =>
    simp only [EaForm.mode] at hb
    rw [m68Try_yes (by rw [hL]; simp only [List.cons_append, List.nil_append, matchPrefix, Bool.and_true]; exact (matches_m68D t).2 ⟨n, hn⟩) hb]
    rw [hL]
    exact body_reg hn c
  | @an n t hn =>
    simp only [EaForm.mode] at hb
    obtain ⟨f1, f2, f3, f4, f5⟩ := areg_facts hn
    rw [m68Try_no (by rw [hL]; simp only [List.cons_append, List.nil_append, matchPrefix, Bool.and_true, f2])]
    rw [m68Try_yes (by rw [hL]; simp only [List.cons_append, List.nil_append, matchPrefix, Bool.and_true]; exact f1) hb]
    rw [hL]
    exact body_reg hn c
  | @ind n t hn =>
    simp only [EaForm.mode] at hb
    obtain ⟨f1, f2, f3, f4, f5⟩ := areg_facts hn
    have hplus : matchPrefix (['('] :: t :: [')'] :: extra) [.str ['('], .coll m68A, .str [')'], .str ['+']] = false := by
      simp only [matchPrefix, f1, Bool.true_and]
      rw [show (Pat.str ['(']).matches ['('] = true from rfl, show (Pat.str [')']).matches [')'] = true from rfl]
      cases extra with
      | nil => rfl
      | cons e ex =>
        simp only [matchPrefix, Bool.and_true, Bool.true_and]
        refine char_false (by decide) (by decide) (by decide) ?_
        rintro rfl
        exact hp rfl
    rw [m68Try_no (by rw [hL]; rfl), m68Try_no (by rw [hL]; rfl), m68Try_no (by rw [hL]; exact hplus)]
    rw [m68Try_yes (by
      rw [hL]
      simp only [List.cons_append, List.nil_append, matchPrefix, f1, Bool.true_and]
      rfl) hb]
    rw [hL]
    exact body_reg hn c
  | @post n t hn =>
    simp only [EaForm.mode] at hb
    obtain ⟨f1, f2, f3, f4, f5⟩ := areg_facts hn
    rw [m68Try_no (by rw [hL]; rfl), m68Try_no (by rw [hL]; rfl)]
    rw [m68Try_yes (by
      rw [hL]
      simp only [List.cons_append, List.nil_append, matchPrefix, f1, Bool.true_and]
      rfl) hb]
    rw [hL]
    exact body_reg hn c
  | @pre n t hn =>
    simp only [EaForm.mode] at hb
    obtain ⟨f1, f2, f3, f4, f5⟩ := areg_facts hn
    rw [m68Try_no (by rw [hL]; rfl), m68Try_no (by rw [hL]; rfl), m68Try_no (by rw [hL]; rfl), m68Try_no (by rw [hL]; rfl)]
    rw [m68Try_yes (by
      rw [hL]
      simp only [List.cons_append, List.nil_append, matchPrefix, f1, Bool.true_and]
      rfl) hb]
    rw [hL]
    exact body_reg hn c
  | @disp v n t hv hn =>
    simp only [EaForm.mode] at hb
    obtain ⟨f1, f2, f3, f4, f5⟩ := areg_facts hn
    obtain ⟨g1, g2, g3, g4, g5⟩ := free_facts hv
    rw [m68Try_no (by rw [hL]; rfl), m68Try_no (by rw [hL]; rfl),
      m68Try_no (by rw [hL]; simp only [List.cons_append, List.nil_append, matchPrefix, g1, Bool.false_and, Bool.and_false]),
      m68Try_no (by rw [hL]; simp only [List.cons_append, List.nil_append, matchPrefix, g1, Bool.false_and, Bool.and_false]),
      m68Try_no (by rw [hL]; rfl)]
    rw [m68Try_yes (by
      rw [hL]
      simp only [List.cons_append, List.nil_append, matchPrefix, f1, Bool.true_and, matches_pred, g3]
      rfl) hb]
    rw [hL]
    exact body_disp hn c
  | @idx v n x t u hv hn hx =>
    simp only [EaForm.mode] at hb
    obtain ⟨f1, f2, f3, f4, f5⟩ := areg_facts hn
    obtain ⟨g1, g2, g3, g4, g5⟩ := free_facts hv
    have hu := idx_ne hx
    rw [m68Try_no (by rw [hL]; rfl), m68Try_no (by rw [hL]; rfl),
      m68Try_no (by rw [hL]; simp only [List.cons_append, List.nil_append, matchPrefix, g1, Bool.false_and, Bool.and_false]),
      m68Try_no (by rw [hL]; simp only [List.cons_append, List.nil_append, matchPrefix, g1, Bool.false_and, Bool.and_false]),
      m68Try_no (by rw [hL]; rfl),
      m68Try_no (by rw [hL]; simp only [List.cons_append, List.nil_append, matchPrefix, hu, Bool.false_and, Bool.and_false])]
    rw [m68Try_yes (by
      rw [hL]
      simp only [List.cons_append, List.nil_append, matchPrefix, f1, Bool.true_and, matches_pred, g3, (m68Idx_of hx c).1]
      rfl) hb]
    rw [hL]
    exact body_idx hn hx c
  | @pcDisp v p hv hpc =>
    simp only [EaForm.mode] at hb
    obtain ⟨f1, f2⟩ := pc_facts hpc
    obtain ⟨g1, g2, g3, g4, g5⟩ := free_facts hv
    rw [m68Try_no (by rw [hL]; rfl), m68Try_no (by rw [hL]; rfl),
      m68Try_no (by rw [hL]; simp only [List.cons_append, List.nil_append, matchPrefix, g1, Bool.false_and, Bool.and_false]),
      m68Try_no (by rw [hL]; simp only [List.cons_append, List.nil_append, matchPrefix, g1, Bool.false_and, Bool.and_false]),
      m68Try_no (by rw [hL]; rfl),
      m68Try_no (by rw [hL]; simp only [List.cons_append, List.nil_append, matchPrefix, f1, Bool.false_and, Bool.and_false]),
      m68Try_no (by rw [hL]; simp only [List.cons_append, List.nil_append, matchPrefix, f1, Bool.false_and, Bool.and_false])]
    rw [m68Try_yes (by
      rw [hL]
      simp only [List.cons_append, List.nil_append, matchPrefix, f2, Bool.true_and, matches_pred, g3]
      rfl) hb]
    rw [hL]
    rfl
  | @pcIdx v x p u hv hpc hx =>
    simp only [EaForm.mode] at hb
    obtain ⟨f1, f2⟩ := pc_facts hpc
    obtain ⟨g1, g2, g3, g4, g5⟩ := free_facts hv
    have hu := idx_ne hx
    rw [m68Try_no (by rw [hL]; rfl), m68Try_no (by rw [hL]; rfl),
      m68Try_no (by rw [hL]; simp only [List.cons_append, List.nil_append, matchPrefix, g1, Bool.false_and, Bool.and_false]),
      m68Try_no (by rw [hL]; simp only [List.cons_append, List.nil_append, matchPrefix, g1, Bool.false_and, Bool.and_false]),
      m68Try_no (by rw [hL]; rfl),
      m68Try_no (by rw [hL]; simp only [List.cons_append, List.nil_append, matchPrefix, f1, Bool.false_and, Bool.and_false]),
      m68Try_no (by rw [hL]; simp only [List.cons_append, List.nil_append, matchPrefix, f1, Bool.false_and, Bool.and_false]),
      m68Try_no (by rw [hL]; simp only [List.cons_append, List.nil_append, matchPrefix, hu, Bool.false_and, Bool.and_false])]
    rw [m68Try_yes (by
      rw [hL]
      simp only [List.cons_append, List.nil_append, matchPrefix, f2, Bool.true_and, matches_pred, g3, (m68Idx_of hx c).1]
      rfl) hb]
    rw [hL]
    exact body_pcIdx hx c
  | @absW v s hv hs =>
    simp only [EaForm.mode] at hb
    obtain ⟨g1, g2, g3, g4, g5⟩ := free_facts hv
    have r1 : (Pat.coll m68A).matches [')'] = false := by decide +kernel
    have r2 : (Pat.str "PC".toList).matches [')'] = false := by decide +kernel
    rw [m68Try_no (by rw [hL]; rfl), m68Try_no (by rw [hL]; rfl),
      m68Try_no (by rw [hL]; simp only [List.cons_append, List.nil_append, matchPrefix, g1, Bool.false_and, Bool.and_false]),
      m68Try_no (by rw [hL]; simp only [List.cons_append, List.nil_append, matchPrefix, g1, Bool.false_and, Bool.and_false]),
      m68Try_no (by rw [hL]; rfl),
      m68Try_no (by rw [hL]; simp only [List.cons_append, List.nil_append, matchPrefix, r1, Bool.false_and, Bool.and_false]),
      m68Try_no (by rw [hL]; simp only [List.cons_append, List.nil_append, matchPrefix, r1, Bool.false_and, Bool.and_false]),
      m68Try_no (by rw [hL]; simp only [List.cons_append, List.nil_append, matchPrefix, r2, Bool.false_and, Bool.and_false]),
      m68Try_no (by rw [hL]; simp only [List.cons_append, List.nil_append, matchPrefix, r2, Bool.false_and, Bool.and_false])]
    rw [m68Try_yes (by
      rw [hL]
      simp only [List.cons_append, List.nil_append, matchPrefix, Bool.true_and, matches_pred, g3, (matches_name s ".W").2 (.inl hs)]
      rfl) hb]
    rw [hL]
    rfl
  | @absL v s hv hs =>
    simp only [EaForm.mode] at hb
    obtain ⟨g1, g2, g3, g4, g5⟩ := free_facts hv
    have r1 : (Pat.coll m68A).matches [')'] = false := by decide +kernel
    have r2 : (Pat.str "PC".toList).matches [')'] = false := by decide +kernel
    have r3 : (Pat.str ".W".toList).matches s = false := by
      rw [Bool.eq_false_iff, ne_eq, matches_name]
      rintro (h | ⟨ch, -, h⟩)
      · exact absurd (hs.symm.trans h) (by decide)
      · have := congrArg List.length (hs.symm.trans h)
        simp at this
    rw [m68Try_no (by rw [hL]; rfl), m68Try_no (by rw [hL]; rfl),
      m68Try_no (by rw [hL]; simp only [List.cons_append, List.nil_append, matchPrefix, g1, Bool.false_and, Bool.and_false]),
      m68Try_no (by rw [hL]; simp only [List.cons_append, List.nil_append, matchPrefix, g1, Bool.false_and, Bool.and_false]),
      m68Try_no (by rw [hL]; rfl),
      m68Try_no (by rw [hL]; simp only [List.cons_append, List.nil_append, matchPrefix, r1, Bool.false_and, Bool.and_false]),
      m68Try_no (by rw [hL]; simp only [List.cons_append, List.nil_append, matchPrefix, r1, Bool.false_and, Bool.and_false]),
      m68Try_no (by rw [hL]; simp only [List.cons_append, List.nil_append, matchPrefix, r2, Bool.false_and, Bool.and_false]),
      m68Try_no (by rw [hL]; simp only [List.cons_append, List.nil_append, matchPrefix, r2, Bool.false_and, Bool.and_false]),
      m68Try_no (by rw [hL]; simp only [List.cons_append, List.nil_append, matchPrefix, r3, Bool.false_and, Bool.and_false])]
    rw [m68Try_yes (by
      rw [hL]
      simp only [List.cons_append, List.nil_append, matchPrefix, Bool.true_and, matches_pred, g3, (matches_name s ".L").2 (.inl hs)]
      rfl) hb]
    rw [hL]
    rfl
  | @imm v hv =>
    simp only [EaForm.mode] at hb
    have hA : (Pat.coll m68A).matches ('#' :: v) = false := notA fun n hn => by
      obtain ⟨a, h1, h2⟩ := hn.shape
      cases h1; exact absurd h2 (by decide)
    have hD : (Pat.coll m68D).matches ('#' :: v) = false := notD fun n hn => by
      obtain ⟨a, h1, h2⟩ := hn.shape
      cases h1; exact absurd h2 (by decide)
    have hl : (Pat.str ['(']).matches ('#' :: v) = false := char_false (by decide) (by decide) (by decide) (by simp)
    have hmi : (Pat.str ['-']).matches ('#' :: v) = false := char_false (by decide) (by decide) (by decide) (by simp)
    have hi : m68IsImm ('#' :: v) = true := (m68IsImm_iff _).2 ⟨v, hv, rfl⟩
    rw [m68Try_no (by rw [hL]; simp only [List.cons_append, List.nil_append, matchPrefix, hD, Bool.false_and]),
      m68Try_no (by rw [hL]; simp only [List.cons_append, List.nil_append, matchPrefix, hA, Bool.false_and])]
    rw [m68Try_no (by rw [hL]; simp only [List.cons_append, List.nil_append, matchPrefix, hl, Bool.false_and]),
      m68Try_no (by rw [hL]; simp only [List.cons_append, List.nil_append, matchPrefix, hl, Bool.false_and]),
      m68Try_no (by rw [hL]; simp only [List.cons_append, List.nil_append, matchPrefix, hmi, Bool.false_and]),
      m68Try_no (by rw [hL]; simp only [List.cons_append, List.nil_append, matchPrefix, hl, Bool.false_and]),
      m68Try_no (by rw [hL]; simp only [List.cons_append, List.nil_append, matchPrefix, hl, Bool.false_and]),
      m68Try_no (by rw [hL]; simp only [List.cons_append, List.nil_append, matchPrefix, hl, Bool.false_and]),
      m68Try_no (by rw [hL]; simp only [List.cons_append, List.nil_append, matchPrefix, hl, Bool.false_and]),
      m68Try_no (by rw [hL]; simp only [List.cons_append, List.nil_append, matchPrefix, hl, Bool.false_and]),
      m68Try_no (by rw [hL]; simp only [List.cons_append, List.nil_append, matchPrefix, hl, Bool.false_and])]
    rw [m68Try_yes (by
      rw [hL]
      simp only [List.cons_append, List.nil_append, matchPrefix, Bool.and_true, matches_pred, hi]) hb]
    rw [hL]
    rfl
  | @absW' v s hf hs =>
    simp only [EaForm.mode] at hb
    obtain ⟨g1, g2, g3, g4, g5⟩ := free_facts hf
    have hmi : (Pat.str ['-']).matches (v ++ s) = false := char_false (by decide) (by decide) (by decide) fun h => by
      rw [h] at hm; exact absurd (hm rfl) (by simp [EaForm.mode])
    rw [m68Try_no (by rw [hL]; simp only [List.cons_append, List.nil_append, matchPrefix, g2, Bool.false_and]),
      m68Try_no (by rw [hL]; simp only [List.cons_append, List.nil_append, matchPrefix, g1, Bool.false_and])]
    rw [m68Try_no (by rw [hL]; simp only [List.cons_append, List.nil_append, matchPrefix, g4, Bool.false_and]),
      m68Try_no (by rw [hL]; simp only [List.cons_append, List.nil_append, matchPrefix, g4, Bool.false_and]),
      m68Try_no (by rw [hL]; simp only [List.cons_append, List.nil_append, matchPrefix, hmi, Bool.false_and]),
      m68Try_no (by rw [hL]; simp only [List.cons_append, List.nil_append, matchPrefix, g4, Bool.false_and]),
      m68Try_no (by rw [hL]; simp only [List.cons_append, List.nil_append, matchPrefix, g4, Bool.false_and]),
      m68Try_no (by rw [hL]; simp only [List.cons_append, List.nil_append, matchPrefix, g4, Bool.false_and]),
      m68Try_no (by rw [hL]; simp only [List.cons_append, List.nil_append, matchPrefix, g4, Bool.false_and]),
      m68Try_no (by rw [hL]; simp only [List.cons_append, List.nil_append, matchPrefix, g4, Bool.false_and]),
      m68Try_no (by rw [hL]; simp only [List.cons_append, List.nil_append, matchPrefix, g4, Bool.false_and]),
      m68Try_no (by rw [hL]; simp only [List.cons_append, List.nil_append, matchPrefix, matches_pred, g5, Bool.false_and])]
    rw [m68Try_yes (by
      rw [hL]
      simp only [List.cons_append, List.nil_append, matchPrefix, Bool.and_true, matches_pred]
      exact (m68IsAbsW_iff _).2 ⟨hf, v, s, rfl, hs, dropLast2_append hs rfl⟩) hb]
    rw [hL]
    simp only [List.cons_append, List.getD_cons_zero, dropLast2_append hs rfl]
    rfl
  | @absL' v s hf hs =>
    simp only [EaForm.mode] at hb
    obtain ⟨g1, g2, g3, g4, g5⟩ := free_facts hf
    have hmi : (Pat.str ['-']).matches (v ++ s) = false := char_false (by decide) (by decide) (by decide) fun h => by
      rw [h] at hm; exact absurd (hm rfl) (by simp [EaForm.mode])
    have hw : m68IsAbsW (v ++ s) = false := by
      rw [Bool.eq_false_iff, ne_eq, m68IsAbsW_iff]
      rintro ⟨-, v', u, h1, h2, h3⟩
      rw [dropLast2_append hs rfl] at h3
      subst h3
      have h4 := List.append_cancel_left h1
      subst h4
      exact absurd (hs.symm.trans h2) (by decide)
    rw [m68Try_no (by rw [hL]; simp only [List.cons_append, List.nil_append, matchPrefix, g2, Bool.false_and]),
      m68Try_no (by rw [hL]; simp only [List.cons_append, List.nil_append, matchPrefix, g1, Bool.false_and])]
    rw [m68Try_no (by rw [hL]; simp only [List.cons_append, List.nil_append, matchPrefix, g4, Bool.false_and]),
      m68Try_no (by rw [hL]; simp only [List.cons_append, List.nil_append, matchPrefix, g4, Bool.false_and]),
      m68Try_no (by rw [hL]; simp only [List.cons_append, List.nil_append, matchPrefix, hmi, Bool.false_and]),
      m68Try_no (by rw [hL]; simp only [List.cons_append, List.nil_append, matchPrefix, g4, Bool.false_and]),
      m68Try_no (by rw [hL]; simp only [List.cons_append, List.nil_append, matchPrefix, g4, Bool.false_and]),
      m68Try_no (by rw [hL]; simp only [List.cons_append, List.nil_append, matchPrefix, g4, Bool.false_and]),
      m68Try_no (by rw [hL]; simp only [List.cons_append, List.nil_append, matchPrefix, g4, Bool.false_and]),
      m68Try_no (by rw [hL]; simp only [List.cons_append, List.nil_append, matchPrefix, g4, Bool.false_and]),
      m68Try_no (by rw [hL]; simp only [List.cons_append, List.nil_append, matchPrefix, g4, Bool.false_and]),
      m68Try_no (by rw [hL]; simp only [List.cons_append, List.nil_append, matchPrefix, matches_pred, g5, Bool.false_and]),
      m68Try_no (by rw [hL]; simp only [List.cons_append, List.nil_append, matchPrefix, matches_pred, hw, Bool.false_and])]
    rw [m68Try_yes (by
      rw [hL]
      simp only [List.cons_append, List.nil_append, matchPrefix, Bool.and_true, matches_pred]
      exact (m68IsAbsL_iff _).2 ⟨hf, v, s, rfl, hs, dropLast2_append hs rfl⟩) hb]
    rw [hL]
    simp only [List.cons_append, List.getD_cons_zero, dropLast2_append hs rfl]
    rfl
  | @abs v hf hno =>
    simp only [EaForm.mode] at hb
    obtain ⟨g1, g2, g3, g4, g5⟩ := free_facts hf
    have hmi : (Pat.str ['-']).matches v = false := char_false (by decide) (by decide) (by decide) fun h => by
      rw [h] at hm; exact absurd (hm rfl) (by simp [EaForm.mode])
    have hw : m68IsAbsW v = false := by
      rw [Bool.eq_false_iff, ne_eq, m68IsAbsW_iff]
      rintro ⟨-, v', u, h1, h2, h3⟩
      exact (hno _ _ h1).1 h2
    have hw' : m68IsAbsL v = false := by
      rw [Bool.eq_false_iff, ne_eq, m68IsAbsL_iff]
      rintro ⟨-, v', u, h1, h2, h3⟩
      exact (hno _ _ h1).2 h2
    rw [m68Try_no (by rw [hL]; simp only [List.cons_append, List.nil_append, matchPrefix, g2, Bool.false_and]),
      m68Try_no (by rw [hL]; simp only [List.cons_append, List.nil_append, matchPrefix, g1, Bool.false_and])]
    rw [m68Try_no (by rw [hL]; simp only [List.cons_append, List.nil_append, matchPrefix, g4, Bool.false_and]),
      m68Try_no (by rw [hL]; simp only [List.cons_append, List.nil_append, matchPrefix, g4, Bool.false_and]),
      m68Try_no (by rw [hL]; simp only [List.cons_append, List.nil_append, matchPrefix, hmi, Bool.false_and]),
      m68Try_no (by rw [hL]; simp only [List.cons_append, List.nil_append, matchPrefix, g4, Bool.false_and]),
      m68Try_no (by rw [hL]; simp only [List.cons_append, List.nil_append, matchPrefix, g4, Bool.false_and]),
      m68Try_no (by rw [hL]; simp only [List.cons_append, List.nil_append, matchPrefix, g4, Bool.false_and]),
      m68Try_no (by rw [hL]; simp only [List.cons_append, List.nil_append, matchPrefix, g4, Bool.false_and]),
      m68Try_no (by rw [hL]; simp only [List.cons_append, List.nil_append, matchPrefix, g4, Bool.false_and]),
      m68Try_no (by rw [hL]; simp only [List.cons_append, List.nil_append, matchPrefix, g4, Bool.false_and]),
      m68Try_no (by rw [hL]; simp only [List.cons_append, List.nil_append, matchPrefix, matches_pred, g5, Bool.false_and]),
      m68Try_no (by rw [hL]; simp only [List.cons_append, List.nil_append, matchPrefix, matches_pred, hw, Bool.false_and]),
      m68Try_no (by rw [hL]; simp only [List.cons_append, List.nil_append, matchPrefix, matches_pred, hw', Bool.false_and])]
    rw [m68Try_yes (by
      rw [hL]
      simp only [List.cons_append, List.nil_append, matchPrefix, Bool.and_true, matches_pred, g3]) hb]
    rw [hL]
    rfl

end Necro
