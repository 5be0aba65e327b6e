import Verif.Lemmas.Tokenizer
/-!
# C07–C12: the tokenizer
-/

namespace Necro
open Spec

/-! ## C07: the shape of the statements -/

theorem C07_shape (code : Str) (ss : List Stmt) (h : tokenize code = .ok ss) :
    ∀ s ∈ ss, (∀ tok ∈ s.tokens, TokenShape tok) ∧
      (s.kind = .label → s.tokens.length ≤ 1 ∧ ∀ tok ∈ s.tokens, ∀ c ∈ tok, plainChar c = true) ∧
      (s.kind ≠ .label → ∃ first rest, s.tokens = first :: rest ∧
        (s.kind = .directive ↔ first.head? = some '.')) := by
  unfold tokenize at h
  split at h
  · rename_i t ht
    injection h with h; subst h
    exact (Tk.run_induction Tk.Shaped (fun _ _ _ h0 h => Tk.next_shaped h0 h) ht init_shaped).2.2.2
  · simp at h

/-- No token is empty. -/
theorem C07_no_empty_token (code : Str) (ss : List Stmt) (h : tokenize code = .ok ss) :
    ∀ s ∈ ss, ∀ tok ∈ s.tokens, tok ≠ [] := by
  intro s hs tok htok
  cases (C07_shape code ss h s hs).1 tok htok <;> simp_all

/-- The only failure is a misplaced label, reported with the line of the colon. -/
theorem C07_error (code : Str) (e : Err) (h : tokenize code = .error e) :
    ∃ pre post, code = pre ++ ':' :: post ∧ e = .tokenizerInvalidLabel (1 + newlines pre) := by
  have key : ∀ (s : Str) (e : Err), ({} : Tk).run s = .error e →
      ∃ pre post, s = pre ++ ':' :: post ∧ e = .tokenizerInvalidLabel (1 + newlines pre) := by
    intro s
    induction s using snoc_induction with
    | h0 => intro e h; simp [Tk.run] at h
    | hs s c ih =>
      intro e h
      rw [Tk.run_snoc] at h
      cases hr : ({} : Tk).run s with
      | error e' =>
        rw [hr] at h; injection h with h; subst h
        obtain ⟨pre, post, h1, h2⟩ := ih e' hr
        exact ⟨pre, post ++ [c], by simp [h1], h2⟩
      | ok t =>
        rw [hr] at h
        obtain ⟨rfl, he⟩ := Tk.next_error h
        have := Tk.run_line hr
        exact ⟨s, [], rfl, by rw [he, this]⟩
  unfold tokenize at h
  split at h
  · simp at h
  · rename_i e' he
    injection h with h; subst h
    obtain ⟨pre, post, h1, h2⟩ := key _ _ he
    refine ⟨pre, post.dropLast, ?_, h2⟩
    have h3 := congrArg List.dropLast h1
    rw [List.dropLast_concat] at h3
    rw [h3]
    cases hp : post with
    | nil =>
      exfalso; subst hp
      have h4 := congrArg List.getLast? h1
      simp at h4
    | cons x xs => simp [List.dropLast_append_of_ne_nil]

example : tokenize "loop: LDA (\"a b\"),X ; c\n.db 'x' $10".toList = .ok
    [⟨.label, ["loop".toList], 1⟩,
     ⟨.instr, ["LDA".toList, "(".toList, "\"a b\"".toList, ")".toList, "X".toList], 1⟩,
     ⟨.directive, [".db".toList, "'x'".toList, "$10".toList], 2⟩] := by decide +kernel
example : tokenize "x\nLDA y: z".toList = .error (.tokenizerInvalidLabel 2) := by decide +kernel

/-! ## C08: line by line -/

theorem C08_compositional (a b : Str) (sa : List Stmt) (ha : tokenize a = .ok sa) (hc : Closed a) :
    tokenize (a ++ '\n' :: b) =
      match tokenize b with
      | .ok sb => .ok (sa ++ sb.map fun s => { s with line := s.line + (newlines a + 1) })
      | .error (.tokenizerInvalidLabel l) => .error (.tokenizerInvalidLabel (l + (newlines a + 1)))
      | .error e => .error e := by
  unfold tokenize at ha ⊢
  have e : a ++ '\n' :: b ++ ['\n'] = (a ++ ['\n']) ++ (b ++ ['\n']) := by simp
  rw [e, Tk.run_append]
  cases hr : ({} : Tk).run (a ++ ['\n']) with
  | error e => rw [hr] at ha; simp at ha
  | ok t =>
    rw [hr] at ha
    injection ha with ha
    rw [Tk.run_snoc] at hr
    cases hra : ({} : Tk).run a with
    | error e => rw [hra] at hr; simp at hr
    | ok ta =>
      rw [hra] at hr
      obtain ⟨h1, h2, h3⟩ := Tk.next_newline (Tk.run_commentClean init_commentClean hra)
        (closed_state hra hc) hr
      have hl : t.line = 1 + (newlines a + 1) := by
        rw [Tk.next_line hr, Tk.run_line hra]
        have : newlines ['\n'] = 1 := by decide
        rw [this]; simp; omega
      have hsh := clean_eq_shift t h1 h2 h3 (by omega)
      simp only []
      rw [hsh, Tk.run_shift, ha, hl]
      have : 1 + (newlines a + 1) - 1 = newlines a + 1 := by omega
      rw [this]
      cases hb : ({} : Tk).run (b ++ ['\n']) with
      | ok tb => simp [exShift, Tk.shift, shiftStmt]
      | error e => cases e <;> rfl

/-- Two lines, the first ending in a comment. -/
example : Closed "LDA #1 ; it's fine".toList ∧
    tokenize "LDA #1 ; it's fine".toList = .ok [⟨.instr, ["LDA".toList, "#1".toList], 1⟩] ∧
    tokenize "LDA #1 ; it's fine\nRTS".toList = .ok [⟨.instr, ["LDA".toList, "#1".toList], 1⟩,
      ⟨.instr, ["RTS".toList], 2⟩] := by decide +kernel
/-- Without `Closed` it fails: the literal swallows the second line. -/
example : ¬ Closed ".db \"abc".toList ∧ tokenize ".db \"abc".toList = .ok [] ∧
    tokenize ".db \"abc\nRTS\"".toList = .ok [⟨.directive, [".db".toList, "\"abc\nRTS\"".toList], 2⟩] := by
  decide +kernel

/-! ## C09: comments, blanks and separators -/

/-- A comment at the end of a line changes nothing, not even line numbers. -/
theorem C09_comment (a cmt b : Str) (ha : Closed a) (hcmt : ∀ c ∈ cmt, c ≠ '\n' ∧ c ≠ '\r') :
    tokenize (a ++ (';' :: cmt ++ '\n' :: b)) = tokenize (a ++ '\n' :: b) := by
  apply tokenize_congr
  intro t ht
  have := Tk.run_comment_newline (Tk.run_commentClean init_commentClean ht) (closed_state ht ha) cmt
    (b ++ ['\n']) hcmt
  simpa using this

/-- The same at the end of the file. -/
theorem C09_comment_eof (a cmt : Str) (ha : Closed a) (hcmt : ∀ c ∈ cmt, c ≠ '\n' ∧ c ≠ '\r') :
    tokenize (a ++ ';' :: cmt) = tokenize a := by
  have := tokenize_congr a (';' :: cmt) [] (fun t ht => by
    have := Tk.run_comment_newline (Tk.run_commentClean init_commentClean ht) (closed_state ht ha) cmt
      [] hcmt
    simpa using this)
  simpa using this

/-- Trailing blanks change nothing. -/
theorem C09_trailing_blanks (a bl b : Str) (ha : Closed a) (hbl : ∀ c ∈ bl, isSep c = true) :
    tokenize (a ++ (bl ++ '\n' :: b)) = tokenize (a ++ '\n' :: b) := by
  apply tokenize_congr
  intro t ht
  have := Tk.run_blanks_newline (closed_state ht ha) bl (b ++ ['\n']) hbl
  simpa using this

theorem C09_trailing_blanks_eof (a bl : Str) (ha : Closed a) (hbl : ∀ c ∈ bl, isSep c = true) :
    tokenize (a ++ bl) = tokenize a := by
  have := tokenize_congr a bl [] (fun t ht => Tk.run_blanks_newline (closed_state ht ha) bl [] hbl)
  simpa using this

/-- Any run of separators is as good as any other. -/
theorem C09_separators (a s s' b : Str) (ha : Closed a)
    (hs : ∀ c ∈ s, isSep c = true) (hs' : ∀ c ∈ s', isSep c = true) (hne : s ≠ []) (hne' : s' ≠ []) :
    tokenize (a ++ (s ++ b)) = tokenize (a ++ (s' ++ b)) := by
  apply tokenize_congr
  intro t ht
  rw [List.append_assoc, List.append_assoc, Tk.run_append, Tk.run_append]
  rcases closed_state ht ha with h | h
  · rw [Tk.run_seps h s hs hne, Tk.run_seps h s' hs' hne']
  · have hns : ∀ c, isSep c = true → c ≠ '\n' ∧ c ≠ '\r' := by
      intro c hc
      simp only [isSep, Bool.or_eq_true, beq_iff_eq] at hc
      rcases hc with (h | h) | h <;> subst h <;> decide
    rw [Tk.run_comment h s (fun c hc => hns c (hs c hc)), Tk.run_comment h s' (fun c hc => hns c (hs' c hc))]

theorem blank_line (l : Str) (bl cmt : Str) (hbl : ∀ c ∈ bl, isSep c = true)
    (hcmt : ∀ c ∈ cmt, c ≠ '\n' ∧ c ≠ '\r') (hl : l = bl ∨ l = bl ++ ';' :: cmt) :
    tokenize l = .ok [] ∧ Closed l := by
  have hm : modeAt bl = .code := by
    unfold modeAt
    have : ∀ (l : Str), (∀ c ∈ l, isSep c = true) → l.foldl Mode.next .code = .code := by
      intro l hl
      induction l with
      | nil => rfl
      | cons c l ih =>
        have h := hl c (by simp)
        have : Mode.next .code c = .code := by
          simp only [isSep, Bool.or_eq_true, beq_iff_eq] at h
          rcases h with (h | h) | h <;> subst h <;> decide
        rw [List.foldl_cons, this]
        exact ih (fun c hc => hl c (by simp [hc]))
    exact this bl hbl
  have h0 : tokenize bl = .ok [] := by
    have := C09_trailing_blanks_eof [] bl (by decide) hbl
    simp only [List.nil_append] at this
    rw [this]; decide +kernel
  rcases hl with rfl | rfl
  · exact ⟨h0, .inl hm⟩
  · refine ⟨?_, ?_⟩
    · rw [C09_comment_eof bl cmt (.inl hm) hcmt, h0]
    · right
      have : ∀ (l : Str), (∀ c ∈ l, c ≠ '\n' ∧ c ≠ '\r') → l.foldl Mode.next .comment = .comment := by
        intro l hl
        induction l with
        | nil => rfl
        | cons c l ih =>
          have h := hl c (by simp)
          rw [List.foldl_cons]
          have e : Mode.next .comment c = .comment := by simp [Mode.next, h]
          rw [e]
          exact ih (fun c hc => hl c (by simp [hc]))
      unfold modeAt at hm ⊢
      rw [List.foldl_append, hm]
      exact this cmt hcmt

/-- A blank or comment-only line inserted between lines leaves every statement's
content alone; statements before it keep their line number, the others move down by
one. -/
theorem C09_blank_line (a bl cmt l b : Str) (sa sb : List Stmt) (ha : Closed a)
    (hta : tokenize a = .ok sa) (htb : tokenize b = .ok sb)
    (hbl : ∀ c ∈ bl, isSep c = true) (hcmt : ∀ c ∈ cmt, c ≠ '\n' ∧ c ≠ '\r')
    (hl : l = bl ∨ l = bl ++ ';' :: cmt) :
    ∃ s1 s2, tokenize (a ++ '\n' :: b) = .ok (sa ++ s1) ∧
      tokenize (a ++ '\n' :: (l ++ '\n' :: b)) = .ok (sa ++ s2) ∧
      s2 = s1.map (fun s => { s with line := s.line + 1 }) ∧
      s2.map content = s1.map content := by
  obtain ⟨hl0, hlc⟩ := blank_line l bl cmt hbl hcmt hl
  have hnl : newlines l = 0 := by
    simp only [newlines, List.count_eq_zero]
    have h1 : '\n' ∉ bl := fun h => by have := hbl _ h; simp [isSep] at this
    have h2 : '\n' ∉ cmt := fun h => (hcmt _ h).1 rfl
    rcases hl with rfl | rfl
    · exact h1
    · simp [h1, h2]
  have e1 := C08_compositional a b sa hta ha
  have e2 := C08_compositional l b [] hl0 hlc
  have e3 := C08_compositional a (l ++ '\n' :: b) sa hta ha
  simp only [htb] at e1 e2
  rw [e2] at e3
  refine ⟨_, _, e1, e3, ?_, ?_⟩
  · simp [hnl]; intros; omega
  · simp [content]

example : tokenize "LDA #1\n \t; note: it's \"here\nRTS".toList = .ok
    [⟨.instr, ["LDA".toList, "#1".toList], 1⟩, ⟨.instr, ["RTS".toList], 3⟩] ∧
    tokenize "LDA,\t#1;x\nRTS".toList = .ok
    [⟨.instr, ["LDA".toList, "#1".toList], 1⟩, ⟨.instr, ["RTS".toList], 2⟩] := by decide +kernel

/-! ## C10: round trip -/

theorem C10_round_trip (ls : List Line) (h : ∀ l ∈ ls, l.WF) :
    tokenize (renderProg ls) = .ok (progStmts 1 ls) := by
  unfold tokenize
  rw [Tk.run_append, run_prog ls h rfl rfl rfl]
  simp [Tk.run, Tk.next, Tk.step, Tk.stepToken, isSpaceTok, Tk.spaces, Tk.flush, Tk.emit]

/-- Without literals spanning lines, the i-th statement is on line i + 1. -/
theorem C10_line_numbers (ls : List Line) (hn : ∀ l ∈ ls, newlines l.render = 0) (n i : Nat) (s : Stmt)
    (hs : (progStmts n ls)[i]? = some s) : s.line = n + i := by
  induction ls generalizing n i with
  | nil => simp [progStmts] at hs
  | cons l ls ih =>
    have h0 := hn l (by simp)
    simp only [progStmts, h0] at hs
    cases i with
    | zero => simp at hs; subst hs; cases l <;> rfl
    | succ i =>
      simp at hs
      have := ih (fun l hl => hn l (by simp [hl])) (n + 1) i hs
      omega

example : (∀ l ∈ [Line.label "start".toList,
      .stmt (.plain ".db".toList) [.str "say \"hi\"\\".toList, .chr "'".toList, .bracket '('],
      .stmt (.plain "RTS".toList) []], l.WF) ∧
    renderProg [Line.label "start".toList,
      .stmt (.plain ".db".toList) [.str "say \"hi\"\\".toList, .chr "'".toList, .bracket '('],
      .stmt (.plain "RTS".toList) []] =
    "start:\n.db \"say \\\"hi\\\"\\\\\" '\\'' (\nRTS\n".toList := by
  refine ⟨?_, by decide +kernel⟩
  simp [Line.WF, Tok.WF, plainChar]

/-! ## C11: line numbers -/

/-- Every statement is produced by one character of the text (the line end, comment
sign or colon that ends it): before it the statement is not there, after it it is, and
the recorded line is the line of that character. -/
theorem C11_line (code : Str) (ss : List Stmt) (h : tokenize code = .ok ss) (i : Nat) (s : Stmt)
    (hs : ss[i]? = some s) :
    ∃ pre c post t0 t1, code ++ ['\n'] = pre ++ c :: post ∧
      (c = '\n' ∨ c = '\r' ∨ c = ';' ∨ c = ':') ∧
      ({} : Tk).run pre = .ok t0 ∧ t0.stmts = ss.take i ∧
      ({} : Tk).run (pre ++ [c]) = .ok t1 ∧ t1.stmts = ss.take i ++ [s] ∧
      s.line = 1 + newlines pre := by
  unfold tokenize at h
  split at h
  · rename_i t ht
    injection h with h; subst h
    obtain ⟨pre, c, post, t0, t1, h1, h2, h3, h4, h5, h6, h7⟩ := Tk.run_emission _ t ht i s hs
    refine ⟨pre, c, post, t0, t1, h1, h7, h2, h4, h3, ?_, h6⟩
    rw [h5, List.take_add_one, hs]; rfl
  · simp at h

/-- Lines never decrease. -/
theorem C11_monotone (code : Str) (ss : List Stmt) (h : tokenize code = .ok ss) (i j : Nat) (s s' : Stmt)
    (hij : i ≤ j) (hs : ss[i]? = some s) (hs' : ss[j]? = some s') : s.line ≤ s'.line := by
  obtain ⟨pre, c, post, t0, t1, h1, _, h2, h3, h4, h5, h6⟩ := C11_line code ss h i s hs
  obtain ⟨pre', c', post', t0', t1', h1', _, h2', h3', h4', h5', h6'⟩ := C11_line code ss h j s' hs'
  rw [h6, h6']
  have hlen : pre.length ≤ pre'.length := by
    apply Nat.le_of_not_lt
    intro hlt
    -- then `pre' ++ [c']` is a prefix of `pre`, which holds too few statements
    have hp : ∃ x, pre = pre' ++ [c'] ++ x := by
      have e := h1.symm.trans h1'
      have e2 : pre.take (pre'.length + 1) = pre' ++ [c'] := by
        have := congrArg (List.take (pre'.length + 1)) e
        rw [List.take_append_of_le_length (by omega)] at this
        rw [this, List.take_append, List.take_of_length_le (by omega)]
        simp
      exact ⟨pre.drop (pre'.length + 1), by rw [← e2, List.take_append_drop]⟩
    obtain ⟨x, hx⟩ := hp
    have hmono : ∀ (y : Str) (u v : Tk), u.run y = .ok v → u.stmts.length ≤ v.stmts.length := by
      intro y u v huv
      refine Tk.run_induction (fun w => u.stmts.length ≤ w.stmts.length) ?_ huv (Nat.le_refl _)
      intro w c w' hw hn
      rcases Tk.next_stmts hn with he | ⟨st, he, _⟩
      · rw [he]; exact hw
      · rw [he, List.length_append]; omega
    rw [hx, Tk.run_append, h4'] at h2
    have := hmono _ _ _ h2
    rw [h3, h5'] at this
    have hj : j < ss.length := by rw [List.getElem?_eq_some_iff] at hs'; exact hs'.1
    simp only [List.length_append, List.length_take, List.length_singleton] at this
    omega
  have hp : ∃ x, pre' = pre ++ x := by
    have e := h1.symm.trans h1'
    have := congrArg (List.take pre.length) e
    rw [List.take_append_of_le_length (by omega), List.take_append_of_le_length (by omega)] at this
    simp at this
    exact ⟨pre'.drop pre.length, by conv => lhs; rw [← List.take_append_drop pre.length pre', ← this]⟩
  obtain ⟨x, hx⟩ := hp
  rw [hx, newlines_append]; omega

/-- A literal spanning lines: the statement carries its last line. -/
example : tokenize "A\n\n.db \"x\ny\"\nB".toList = .ok
    [⟨.instr, ["A".toList], 1⟩, ⟨.directive, [".db".toList, "\"x\ny\"".toList], 4⟩,
     ⟨.instr, ["B".toList], 5⟩] := by decide +kernel

/-! ## C12: an unterminated literal -/

/-- A literal opened after `a` and never closed: no error; everything from the pending
statement on disappears, whatever follows. -/
theorem C12_unterminated (a : Str) (sa : List Stmt) (ha : tokenize a = .ok sa) (hm : modeAt a = .code)
    (q : Char) (hq : q = '"' ∨ q = '\'') (b : Str) (hb : closes q b = false) :
    ∃ kept lost, sa = kept ++ lost ∧ lost.length ≤ 1 ∧ (∀ s ∈ lost, s.line = 1 + newlines a) ∧
      tokenize (a ++ q :: b) = .ok kept := by
  have ha' := ha
  unfold tokenize at ha'
  rw [Tk.run_snoc] at ha'
  cases hra : ({} : Tk).run a with
  | error e => rw [hra] at ha'; simp at ha'
  | ok t =>
    rw [hra] at ha'
    simp only [] at ha'
    have hst : t.state = .token := by
      rw [← mode_code, Tk.run_mode hra]; exact hm
    cases hn : t.next '\n' with
    | error e => rw [hn] at ha'; simp at ha'
    | ok t' =>
      rw [hn] at ha'
      injection ha' with ha'
      have hu := tokenize_unclosed hra hst q hq b hb
      rcases Tk.next_stmts hn with he | ⟨st, he, hl, _⟩
      · exact ⟨t.stmts, [], by rw [← ha', he]; simp, by simp, by simp, hu⟩
      · refine ⟨t.stmts, [st], by rw [← ha', he], by simp, ?_, hu⟩
        have := Tk.run_line hra
        simp [hl, this]

/-- At the start of a line nothing before it is lost, and nothing after it is found. -/
theorem C12_unterminated_line (a : Str) (sa : List Stmt) (ha : tokenize a = .ok sa) (hc : Closed a)
    (q : Char) (hq : q = '"' ∨ q = '\'') (b : Str) (hb : closes q b = false) :
    tokenize (a ++ '\n' :: q :: b) = .ok sa := by
  rw [C08_compositional a (q :: b) sa ha hc]
  have := tokenize_unclosed (a := []) (t := {}) rfl rfl q hq b hb
  simp only [List.nil_append] at this
  rw [this]; simp

/-- So "every instruction line is either assembled or reported" is false: the two
lines after the stray quote vanish. -/
theorem C12_silent_loss :
    tokenize "LDA #1\n.db \"abc\nRTS\nBRK".toList = .ok [⟨.instr, ["LDA".toList, "#1".toList], 1⟩] := by
  decide +kernel
example : modeAt "LDA #1\n.db ".toList = .code ∧ closes '"' "abc\\\"\nRTS\nBRK".toList = false := by
  decide +kernel

end Necro
