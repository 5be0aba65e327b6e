import Verif.Lemmas.Utils
import Verif.Spec.Expr

namespace Necro
open Spec

/-! ## numerals -/

theorem numeral_mem {b v : Nat} (hb : 1 < b) {c : Char} (h : c ∈ numeral b v) :
    ∃ d, d < b ∧ c = d.digitChar := by
  induction v using Nat.strongRecOn with
  | _ v ih =>
    unfold numeral at h ih
    rw [Nat.toDigits_eq_if hb] at h
    split at h
    · simp at h; exact ⟨v, by assumption, h⟩
    · rename_i hlt
      simp at h
      rcases h with h | h
      · exact ih (v / b) (Nat.div_lt_self (by omega) hb) h
      · exact ⟨v % b, Nat.mod_lt _ (by omega), h⟩

/-- Facts about the digit characters, by cases. -/
theorem digitChar_facts' : ∀ d : Fin 16, ∀ c ∈ [Nat.digitChar d, (Nat.digitChar d).toUpper],
    digitVal c = some d.1 ∧ c ≠ '_' ∧ isPySpace c = false ∧ isOp c = false ∧ isPre c = false ∧
    c ≠ '-' ∧ c ≠ '+' ∧ c ≠ '\'' ∧ c ≠ 'x' ∧ c ≠ 'X' ∧ c ≠ 'o' ∧ c ≠ 'O' ∧
    (c = 'b' → 11 ≤ d.1) ∧ (c = 'B' → 11 ≤ d.1) ∧ (d.1 < 10 → c.isDigit = true) := by decide

theorem IsDigit.facts {b d : Nat} {c : Char} (hb : b ≤ 16) (h : IsDigit b d c) :
    digitVal c = some d ∧ c ≠ '_' ∧ isPySpace c = false ∧ isOp c = false ∧ isPre c = false ∧
    c ≠ '-' ∧ c ≠ '+' ∧ c ≠ '\'' ∧ c ≠ 'x' ∧ c ≠ 'X' ∧ c ≠ 'o' ∧ c ≠ 'O' ∧
    (c = 'b' → 11 ≤ d) ∧ (c = 'B' → 11 ≤ d) ∧ (d < 10 → c.isDigit = true) :=
  digitChar_facts' ⟨d, Nat.lt_of_lt_of_le h.1 hb⟩ c (by simpa using h.2)

theorem IsDigit.digitIn {b d : Nat} {c : Char} (hb : b ≤ 16) (h : IsDigit b d c) : digitIn b c = some d := by
  simp [Necro.digitIn, (IsDigit.facts hb h).1, h.1]

theorem Reads.mem {b v : Nat} {s : Str} (h : Reads b s v) : ∀ c ∈ s, ∃ d, IsDigit b d c := by
  induction h with
  | one hd => intro c hc; simp at hc; subst hc; exact ⟨_, hd⟩
  | snoc _ hd ih =>
    intro c hc
    simp at hc
    rcases hc with hc | hc
    · exact ih c hc
    · subst hc; exact ⟨_, hd⟩

theorem Reads.ne_nil {b v : Nat} {s : Str} (h : Reads b s v) : s ≠ [] := by
  cases h <;> simp

theorem numeral_reads {b : Nat} (hb : 1 < b) (v : Nat) : Reads b (numeral b v) v := by
  induction v using Nat.strongRecOn with
  | _ v ih =>
    unfold numeral at *
    rw [Nat.toDigits_eq_if hb]
    split
    · rename_i h; exact .one ⟨h, .inl rfl⟩
    · have := Reads.snoc (ih (v / b) (Nat.div_lt_self (by omega) hb)) (c := (v % b).digitChar)
        (d := v % b) ⟨Nat.mod_lt _ (by omega), .inl rfl⟩
      rwa [Nat.mul_comm, Nat.div_add_mod] at this

theorem scanDigits_snoc {base : Nat} (s : Str) (c : Char) (d : Nat) (hc : digitIn base c = some d)
    (hs : ∀ x ∈ s, x ≠ '_') (hc' : c ≠ '_') : ∀ acc, scanDigits base acc (s ++ [c]) =
      (scanDigits base acc s).map fun a => a * base + d := by
  induction s with
  | nil =>
    intro acc
    simp [scanDigits, hc]
  | cons x s ih =>
    intro acc
    have hx := hs x (by simp)
    have ih := ih (fun y hy => hs y (by simp [hy]))
    have e1 : ∀ r acc, scanDigits base acc (x :: r) =
        match digitIn base x with
        | some d => scanDigits base (acc * base + d) r
        | none => none := by
      intro r acc
      rw [scanDigits.eq_def]
      split
      · simp_all
      · rename_i h; simp at h; exact absurd h.1 hx
      · rename_i h; simp at h; obtain ⟨rfl, rfl⟩ := h; rfl
    rw [List.cons_append, e1, e1]
    cases digitIn base x with
    | none => rfl
    | some d' => exact ih _

theorem pyDigits_reads {b v : Nat} {s : Str} (hb' : b ≤ 16) (h : Reads b s v) :
    pyDigits b s = some v := by
  induction h with
  | one hd => simp [pyDigits, IsDigit.digitIn hb' hd, scanDigits]
  | @snoc s v c d hr hd ih =>
    have hu : ∀ y ∈ s, y ≠ '_' := by
      intro y hy
      obtain ⟨d, h1⟩ := Reads.mem hr y hy
      exact (IsDigit.facts hb' h1).2.1
    cases s with
    | nil => exact absurd rfl (Reads.ne_nil hr)
    | cons x s =>
      simp only [pyDigits, List.cons_append] at ih ⊢
      cases hx : digitIn b x with
      | none => rw [hx] at ih; simp at ih
      | some d' =>
        rw [hx] at ih
        simp only at ih ⊢
        rw [scanDigits_snoc s _ _ (IsDigit.digitIn hb' hd) (fun y hy => hu y (by simp [hy]))
          (IsDigit.facts hb' hd).2.1, ih]
        simp

theorem strip_eq {s : Str} (h : ∀ c ∈ s, isPySpace c = false) : strip s = s := by
  have h1 : ∀ l : Str, (∀ c ∈ l, isPySpace c = false) → l.dropWhile isPySpace = l := by
    intro l hl
    cases l with
    | nil => rfl
    | cons c l => simp [List.dropWhile, hl c (by simp)]
  unfold strip
  rw [h1 s h, h1 s.reverse (by simpa using h), List.reverse_reverse]

theorem Reads.notSpace {b v : Nat} {s : Str} (hb' : b ≤ 16) (h : Reads b s v) :
    ∀ c ∈ s, isPySpace c = false := by
  intro c hc
  obtain ⟨d, h1⟩ := Reads.mem h c hc
  exact (IsDigit.facts hb' h1).2.2.1

theorem dropBasePrefix_reads {b v : Nat} {s : Str} (hb' : b ≤ 16) (h : Reads b s v) :
    dropBasePrefix b s = s := by
  have hm := Reads.mem h
  rw [dropBasePrefix.eq_def]
  split
  · rename_i c cs
    obtain ⟨d, h1⟩ := hm c (by simp)
    have f := IsDigit.facts hb' h1
    have hlt := h1.1
    split
    · rename_i hcond
      exfalso
      rcases hcond with ⟨h, h' | h'⟩ | ⟨h, h' | h'⟩ | ⟨h, h' | h'⟩
      · exact f.2.2.2.2.2.2.2.2.1 h'
      · exact f.2.2.2.2.2.2.2.2.2.1 h'
      · exact f.2.2.2.2.2.2.2.2.2.2.1 h'
      · exact f.2.2.2.2.2.2.2.2.2.2.2.1 h'
      · have := f.2.2.2.2.2.2.2.2.2.2.2.2.1 h'; omega
      · have := f.2.2.2.2.2.2.2.2.2.2.2.2.2.1 h'; omega
    · rfl
  · rfl

theorem pyInt_reads {b v : Nat} {s : Str} (hb' : b ≤ 16) (h : Reads b s v) :
    pyInt b s = some (v : Int) := by
  unfold pyInt
  rw [strip_eq (Reads.notSpace hb' h)]
  have hm := Reads.mem h
  have hsign : ∀ r, s ≠ '-' :: r ∧ s ≠ '+' :: r := by
    intro r
    constructor <;> intro h
    · rw [h] at hm
      obtain ⟨d, h1⟩ := hm '-' (by simp)
      exact (IsDigit.facts hb' h1).2.2.2.2.2.1 rfl
    · rw [h] at hm
      obtain ⟨d, h1⟩ := hm '+' (by simp)
      exact (IsDigit.facts hb' h1).2.2.2.2.2.2.1 rfl
  split
  · rename_i r; exact absurd rfl (hsign r).1
  · rename_i r; exact absurd rfl (hsign r).2
  · rw [dropBasePrefix_reads hb' h, pyDigits_reads hb' h]; rfl

theorem pyInt_neg_reads {v : Nat} {s : Str} (h : Reads 10 s v) : pyInt 10 ('-' :: s) = some (-(v : Int)) := by
  unfold pyInt
  rw [strip_eq (by
    intro c hc; simp at hc
    rcases hc with h' | h'
    · subst h'; decide
    · exact Reads.notSpace (by decide) h c h')]
  simp only []
  rw [dropBasePrefix_reads (by decide) h, pyDigits_reads (by decide) h]
  rfl

/-! ## formulas -/

theorem formulaChar_false {c : Char} (h : formulaChar c = false) : isOp c = false ∧ isPre c = false := by
  simp [formulaChar] at h
  simp [isOp, isPre, h]

theorem scanPost_none (s : Str) (h : ∀ c ∈ s, isOp c = false) : ∀ k, scanPost k s = [] := by
  induction s with
  | nil => intro k; rfl
  | cons c s ih =>
    intro k
    simp only [scanPost, h c (by simp)]
    exact ih (fun c hc => h c (by simp [hc])) _

theorem scanPost_pos (body post : Str) (hb : ∀ c ∈ body, isOp c = false)
    (hp : ∃ o r, post = o :: r ∧ isOp o = true) : ∀ k, 1 ≤ k + body.length → scanPost k (body ++ post) = post := by
  induction body with
  | nil =>
    intro k hk
    obtain ⟨o, r, rfl, ho⟩ := hp
    have : ¬ k < 1 := by simp at hk; omega
    simp [scanPost, ho, this]
  | cons c b ih =>
    intro k hk
    simp only [List.cons_append, scanPost, hb c (by simp)]
    exact ih (fun c hc => hb c (by simp [hc])) (k + 1) (by omega)

theorem takeWhile_append_stop (p : Char → Bool) (pre rest : Str) (h1 : ∀ c ∈ pre, p c = true)
    (h2 : ∀ c, rest.head? = some c → p c = false) : (pre ++ rest).takeWhile p = pre := by
  induction pre with
  | nil =>
    cases rest with
    | nil => rfl
    | cons c r => simp [List.takeWhile, h2 c rfl]
  | cons c pre ih =>
    simp only [List.cons_append, List.takeWhile, h1 c (by simp)]
    rw [ih (fun c hc => h1 c (by simp [hc]))]

/-- Decomposition of a token with prefix operators, a body and a formula. -/
theorem getMathFormula_eq (pre body post : Str) (hpre : ∀ c ∈ pre, isPre c = true)
    (hbody : ∀ c ∈ body, isOp c = false) (hne : body ≠ []) (hhd : ∀ c, body.head? = some c → isPre c = false)
    (hpost : post = [] ∨ ∃ o r, post = o :: r ∧ isOp o = true) :
    getMathFormula (pre ++ body ++ post) = ⟨body, pre, post⟩ := by
  have htw : (pre ++ body ++ post).takeWhile isPre = pre := by
    rw [List.append_assoc]
    apply takeWhile_append_stop _ _ _ hpre
    intro c hc
    cases body with
    | nil => exact absurd rfl hne
    | cons x b => exact hhd c (by simpa using hc)
  unfold getMathFormula
  simp only [htw]
  have hd : (pre ++ body ++ post).drop pre.length = body ++ post := by
    rw [List.append_assoc, List.drop_left]
  rw [hd]
  rcases hpost with rfl | hp
  · rw [List.append_nil, scanPost_none body hbody]
    simp
  · rw [scanPost_pos body post hbody hp 0 (by
      cases body with
      | nil => exact absurd rfl hne
      | cons x b => simp)]
    have : 0 < post.length := by obtain ⟨o, r, rfl, _⟩ := hp; simp
    simp only [gt_iff_lt, this, if_true]
    congr 1
    have : (pre ++ body ++ post).length - post.length - pre.length = body.length := by
      simp; omega
    rw [this, List.take_left]

/-- A token without operator or prefix characters is its own body. -/
theorem getMathFormula_plain (tok : Str) (h : ∀ c ∈ tok, isOp c = false)
    (hhd : ∀ c, tok.head? = some c → isPre c = false) : getMathFormula tok = ⟨tok, [], []⟩ := by
  by_cases hne : tok = []
  · subst hne; rfl
  · have := getMathFormula_eq [] tok [] (by simp) h hne hhd (.inl rfl)
    simpa using this

/-- In an operand there is never a second formula. -/
theorem getMathFormula_post_nil (tok : Str) (h : ∀ c ∈ tok, isOp c = false) :
    (getMathFormula tok).post = [] := by
  unfold getMathFormula
  simp only
  rw [scanPost_none _ (fun c hc => h c (List.mem_of_mem_drop hc))]
  simp

theorem splitOps_cons (cmd : Option Char) (arg : Str) (c : Char) (cs : Str) :
    splitOps cmd arg (c :: cs) =
    if isOp c then
      match cmd with
      | some k => (k, arg) :: splitOps (some c) [] cs
      | none => splitOps (some c) [] cs
    else splitOps cmd (arg ++ [c]) cs := by
  cases cmd <;> simp [splitOps]

theorem splitOps_noOp (s : Str) : ∀ (cmd : Option Char) (arg : Str), (∀ c ∈ arg, isOp c = false) →
    ∀ p ∈ splitOps cmd arg s, ∀ c ∈ p.2, isOp c = false := by
  induction s with
  | nil =>
    intro cmd arg ha p hp
    cases cmd with
    | none => simp [splitOps] at hp
    | some k => simp [splitOps] at hp; subst hp; exact ha
  | cons c s ih =>
    intro cmd arg ha p hp
    rw [splitOps_cons] at hp
    by_cases hc : isOp c = true
    · simp only [hc, if_true] at hp
      cases cmd with
      | none => exact ih (some c) [] (by simp) p hp
      | some k =>
        simp at hp
        rcases hp with hp | hp
        · subst hp; exact ha
        · exact ih (some c) [] (by simp) p hp
    · simp only [hc] at hp
      refine ih cmd (arg ++ [c]) ?_ p hp
      intro x hx; simp at hx
      rcases hx with hx | hx
      · exact ha x hx
      · subst hx; simpa using hc

theorem splitOps_arg (arg : Str) (harg : ∀ c ∈ arg, isOp c = false) (cmd : Option Char) (acc rest : Str) :
    splitOps cmd acc (arg ++ rest) = splitOps cmd (acc ++ arg) rest := by
  induction arg generalizing acc with
  | nil => simp
  | cons c a ih =>
    rw [List.cons_append, splitOps_cons, harg c (by simp)]
    simp only [Bool.false_eq_true, if_false]
    rw [ih (fun c hc => harg c (by simp [hc]))]
    simp

theorem Op.isOp (o : Op) : isOp o.char = true := by cases o <;> decide

theorem splitOps_write (ops : List (Op × Str)) (h : ∀ o ∈ ops, ∀ c ∈ o.2, isOp c = false) :
    ∀ (cmd : Char) (arg : Str), splitOps (some cmd) arg (writeOps ops) =
      (cmd, arg) :: ops.map fun o => (o.1.char, o.2) := by
  induction ops with
  | nil => intro cmd arg; rfl
  | cons o ops ih =>
    intro cmd arg
    have h1 := h o (by simp)
    simp only [writeOps, List.flatMap_cons, List.cons_append, splitOps, Op.isOp, if_true]
    rw [splitOps_arg o.2 h1]
    have := ih (fun o ho => h o (by simp [ho])) o.1.char o.2
    simp only [List.nil_append]
    unfold writeOps at this
    rw [this]; rfl

theorem splitOps_none_write (ops : List (Op × Str)) (h : ∀ o ∈ ops, ∀ c ∈ o.2, isOp c = false) :
    splitOps none [] (writeOps ops) = ops.map fun o => (o.1.char, o.2) := by
  cases ops with
  | nil => rfl
  | cons o ops =>
    have h1 := h o (by simp)
    simp only [writeOps, List.flatMap_cons, List.cons_append, splitOps, Op.isOp, if_true]
    rw [splitOps_arg o.2 h1]
    have := splitOps_write ops (fun o ho => h o (by simp [ho])) o.1.char o.2
    simp only [List.nil_append]
    unfold writeOps at this
    rw [this]; rfl

theorem applyOp_eval (o : Op) (x y : Int) : applyOp o.char x y = o.eval x y := by
  cases o <;> simp [applyOp, Op.char, Op.eval]

theorem applyOps_write (ev : Str → Except Err Int) (ops : List (Op × Str)) : ∀ v,
    applyOps ev v (ops.map fun o => (o.1.char, o.2)) = evalOps ev v ops := by
  induction ops with
  | nil => intro v; rfl
  | cons o ops ih =>
    intro v
    obtain ⟨o, a⟩ := o
    simp only [List.map_cons, applyOps, evalOps]
    cases ev a with
    | error e => rfl
    | ok x =>
      simp only [applyOp_eval]
      cases o.eval v x with
      | error e => rfl
      | ok v' => exact ih v'

theorem applyOps_congr (ev ev' : Str → Except Err Int) (ops : List (Char × Str))
    (h : ∀ p ∈ ops, ev p.2 = ev' p.2) : ∀ v, applyOps ev v ops = applyOps ev' v ops := by
  induction ops with
  | nil => intro v; rfl
  | cons o ops ih =>
    intro v
    obtain ⟨o, a⟩ := o
    have h1 := h (o, a) (by simp)
    simp only at h1
    simp only [applyOps, h1]
    cases ev' a with
    | error e => rfl
    | ok x =>
      simp only
      cases applyOp o v x with
      | error e => rfl
      | ok v' => exact ih (fun p hp => h p (by simp [hp])) v'

theorem parseIntegerW_noOp (ev ev' : Str → Except Err Int) (sy : NumSyntax) (tok : Str) (bits : Nat)
    (signed : Bool) (h : ∀ c ∈ tok, isOp c = false) :
    parseIntegerW ev sy tok bits signed = parseIntegerW ev' sy tok bits signed := by
  unfold parseIntegerW applyMathW
  simp only [getMathFormula_post_nil tok h, splitOps, applyOps]

theorem labelAddressW_noOp (ev ev' : Str → Except Err Int) (ls : Labels) (tok : Str) (start : Int)
    (h : ∀ c ∈ tok, isOp c = false) :
    labelAddressW ev ls tok start = labelAddressW ev' ls tok start := by
  unfold labelAddressW applyMathW
  simp only [getMathFormula_post_nil tok h, splitOps, applyOps]

theorem evalArg_noOp (sy : NumSyntax) (ls : Labels) (d : Nat) (arg : Str) (h : ∀ c ∈ arg, isOp c = false) :
    evalArg sy ls (d + 1) arg = evalArg sy ls 1 arg := by
  rw [evalArg, evalArg]
  rw [parseIntegerW_noOp (evalArg sy ls d) (evalArg sy ls 0) sy arg 64 false h,
    labelAddressW_noOp (evalArg sy ls d) (evalArg sy ls 0) ls arg 0 h]

theorem applyMathW_depth (sy : NumSyntax) (ls : Labels) (d : Nat) (pre post : Str) (v : Int) :
    applyMathW (evalArg sy ls (d + 1)) pre post v = applyMathW (evalArg sy ls 1) pre post v := by
  unfold applyMathW
  apply applyOps_congr
  intro p hp
  exact evalArg_noOp sy ls d p.2 (splitOps_noOp post none [] (by simp) p hp)

/-! ## no recursion error -/

theorem tryPrefixes_err {base : Nat} {dec : Bool} {token : Str} {ps : List Str} {e : Err}
    (h : tryPrefixes base dec token ps = some (.error e)) : e = .valueError := by
  induction ps with
  | nil => simp [tryPrefixes] at h
  | cons p ps ih =>
    simp only [tryPrefixes] at h
    split at h
    · split at h <;> simp at h; exact h.symm
    · exact ih h

theorem trySuffixes_err {base : Nat} {dec : Bool} {token : Str} {ps : List Str} {e : Err}
    (h : trySuffixes base dec token ps = some (.error e)) : e = .valueError := by
  induction ps with
  | nil => simp [trySuffixes] at h
  | cons p ps ih =>
    simp only [trySuffixes] at h
    split at h
    · split at h <;> simp at h; exact h.symm
    · exact ih h

theorem orTry_cases {α : Type} {a b : Option α} {x : α} (h : orTry a b = some x) : a = some x ∨ b = some x := by
  cases a with
  | none => exact .inr h
  | some y => exact .inl h

theorem internalParseInteger_err {sy : NumSyntax} {token : Str} {e : Err}
    (h : internalParseInteger sy token = .error e) : e = .indexError ∨ e = .valueError := by
  have hrest : ∀ tok e, internalParseInteger.rest sy tok = .error e → e = .valueError := by
    intro tok e h
    unfold internalParseInteger.rest at h
    split at h
    · simp at h
    · rename_i e' he
      injection h with h; subst h
      rcases orTry_cases he with he | he
      · exact tryPrefixes_err he
      rcases orTry_cases he with he | he
      · exact tryPrefixes_err he
      rcases orTry_cases he with he | he
      · exact tryPrefixes_err he
      rcases orTry_cases he with he | he
      · exact tryPrefixes_err he
      rcases orTry_cases he with he | he
      · exact trySuffixes_err he
      rcases orTry_cases he with he | he
      · exact trySuffixes_err he
      rcases orTry_cases he with he | he
      · exact trySuffixes_err he
      · exact trySuffixes_err he
    · split at h <;> simp at h
  unfold internalParseInteger at h
  split at h
  · injection h with h; exact .inl h.symm
  · split at h
    · simp at h
    · exact .inr (hrest _ _ h)
    · injection h with h; exact .inl h.symm
  · exact .inr (hrest _ _ h)

theorem checkRange_err {v : Int} {d : Bool} {n : Nat} {s : Bool} {e : Err}
    (h : checkRange v d n s = .error e) : e = .negativeSignNotAllowed ∨ e = .notInBitRange := by
  unfold checkRange at h
  simp only at h
  (repeat' split at h) <;> simp at h <;> simp [← h]

theorem applyOp_err {o : Char} {x y : Int} {e : Err} (h : applyOp o x y = .error e) : e = .zeroDivisionError := by
  unfold applyOp at h
  (repeat' split at h) <;> simp at h; exact h.symm

theorem applyOps_err {ev : Str → Except Err Int} {P : Err → Prop} (hz : P .zeroDivisionError)
    {ops : List (Char × Str)} (hev : ∀ p ∈ ops, ∀ e, ev p.2 = .error e → P e) :
    ∀ {v e}, applyOps ev v ops = .error e → P e := by
  induction ops with
  | nil => intro v e h; simp [applyOps] at h
  | cons o ops ih =>
    intro v e h
    obtain ⟨o, a⟩ := o
    simp only [applyOps] at h
    split at h
    · rename_i e' he; injection h with h; subst h; exact hev (o, a) (by simp) _ he
    · split at h
      · rename_i e' he; injection h with h; subst h; rw [applyOp_err he]; exact hz
      · exact ih (fun p hp => hev p (by simp [hp])) h

/-- The exceptions an expression can raise. -/
def exprErr (e : Err) : Prop :=
  e = .indexError ∨ e = .valueError ∨ e = .negativeSignNotAllowed ∨ e = .notInBitRange ∨
  e = .zeroDivisionError ∨ ∃ l, e = .unknownLabel l

theorem parseIntegerW_err {ev : Str → Except Err Int} {sy : NumSyntax} {tok : Str} {bits : Nat} {s : Bool} {e : Err}
    (hev : ∀ p ∈ splitOps none [] (getMathFormula tok).post, ∀ e, ev p.2 = .error e → exprErr e)
    (h : parseIntegerW ev sy tok bits s = .error e) : exprErr e := by
  unfold parseIntegerW at h
  simp only at h
  split at h
  · rename_i e' he; injection h with h; subst h
    rcases internalParseInteger_err he with h | h <;> simp [exprErr, h]
  · simp at h
  · split at h
    · rename_i e' he; injection h with h; subst h
      exact applyOps_err (P := exprErr) (by simp [exprErr]) hev he
    · split at h
      · rename_i e' he; injection h with h; subst h
        rcases checkRange_err he with h | h <;> simp [exprErr, h]
      · simp at h

theorem labelAddressW_err {ev : Str → Except Err Int} {ls : Labels} {tok : Str} {st : Int} {e : Err}
    (hev : ∀ p ∈ splitOps none [] (getMathFormula tok).post, ∀ e, ev p.2 = .error e → exprErr e)
    (h : labelAddressW ev ls tok st = .error e) : exprErr e := by
  unfold labelAddressW at h
  simp only at h
  split at h
  · simp at h
  · split at h
    · rename_i e' he; injection h with h; subst h
      exact applyOps_err (P := exprErr) (by simp [exprErr]) hev he
    · simp at h

theorem evalArg_err {sy : NumSyntax} {ls : Labels} {arg : Str} {e : Err} (hno : ∀ c ∈ arg, isOp c = false)
    (h : evalArg sy ls 1 arg = .error e) : exprErr e := by
  have hp := getMathFormula_post_nil arg hno
  simp only [evalArg] at h
  split at h
  · simp at h
  · split at h
    · rename_i e' he; injection h with h; subst h
      exact parseIntegerW_err (by rw [hp]; simp [splitOps]) he
    · simp at h
    · split at h
      · rename_i e' he; injection h with h; subst h
        exact labelAddressW_err (by rw [hp]; simp [splitOps]) he
      · simp at h
      · injection h with h; subst h; simp [exprErr]

/-! ## range -/

theorem checkRange_eq (v : Int) (d : Bool) (n : Nat) (s : Bool) (hn : 1 ≤ n) : checkRange v d n s =
    if d = false then
      if v < 0 then .error .negativeSignNotAllowed else if v < 2 ^ n then .ok v else .error .notInBitRange
    else if s = true then
      if -(2 ^ (n - 1)) ≤ v ∧ v < 2 ^ (n - 1) then .ok v else .error .notInBitRange
    else
      if 0 ≤ v then (if v < 2 ^ n then .ok v else .error .notInBitRange)
      else if -(2 ^ (n - 1)) ≤ v then .ok (v + 2 ^ n) else .error .notInBitRange := by
  have hp : (0 : Int) < 2 ^ (n - 1) := Int.pow_pos (by decide)
  have h2 : (2 : Int) ^ n = 2 ^ (n - 1) * 2 := by
    obtain ⟨b, rfl⟩ : ∃ b, n = b + 1 := ⟨n - 1, by omega⟩
    simp [Int.pow_succ]
  have hcast : ((2 ^ n : Nat) : Int) = 2 ^ n := by simp
  have hib : ∀ v : Int, inBitRange v n = true ↔ 0 ≤ v ∧ v < 2 ^ n := fun v => inBitRange_iff v n
  have hid := inBitRangeDecimal_iff v n hn true
  simp only [if_true] at hid
  unfold checkRange
  simp only [hcast]
  cases d <;> cases s <;>
    simp only [Bool.not_false, Bool.not_true, Bool.true_and, Bool.false_and, Bool.false_eq_true,
      decide_eq_true_eq, if_true, if_false, Bool.true_eq_false, reduceCtorEq]
  · split
    · rfl
    · by_cases h : inBitRange v n = true
      · have := (hib v).1 h; simp [h, this.2]
      · have h' := h; rw [hib] at h
        simp only [Bool.not_eq_true] at h'
        have h3 : ¬ v < 2 ^ n := by omega
        simp [h', h3]
  · split
    · rfl
    · by_cases h : inBitRange v n = true
      · have := (hib v).1 h; simp [h, this.2]
      · have h' := h; rw [hib] at h
        simp only [Bool.not_eq_true] at h'
        have h3 : ¬ v < 2 ^ n := by omega
        simp [h', h3]
  · by_cases h0 : v < 0
    · have hd : (2 : Int) ^ n / 2 = 2 ^ (n - 1) := by rw [h2]; omega
      rw [if_pos h0, if_neg (by omega : ¬ 0 ≤ v), hd]
      by_cases h3 : -(2 ^ (n - 1)) ≤ v
      · rw [if_neg (by omega), if_pos h3]
        have : inBitRange (v + 2 ^ n) n = true := (hib _).2 (by omega)
        simp [this]
      · rw [if_pos (by omega), if_neg h3]
    · rw [if_neg h0, if_pos (by omega : 0 ≤ v)]
      by_cases h : inBitRange v n = true
      · have := (hib v).1 h; simp [h, this.2]
      · have h' := h; rw [hib] at h
        simp only [Bool.not_eq_true] at h'
        have h3 : ¬ v < 2 ^ n := by omega
        simp [h', h3]
  · by_cases h : inBitRangeDecimal v n true = true
    · rw [if_pos (hid.1 h)]; simp [h]
    · have h' := h; rw [hid] at h
      simp only [Bool.not_eq_true] at h'
      simp [h', h]

/-! ## prefixes -/

theorem tryPrefixes_none {base : Nat} {dec : Bool} {tok : Str} {ps : List Str}
    (h : ∀ p ∈ ps, ¬ p <+: tok) : tryPrefixes base dec tok ps = none := by
  induction ps with
  | nil => rfl
  | cons p ps ih =>
    have h1 : startsWith tok p = false := by
      have := h p (by simp)
      simp only [startsWith, ← Bool.not_eq_true, List.isPrefixOf_iff_prefix]; exact this
    simp [tryPrefixes, h1, ih (fun p hp => h p (by simp [hp]))]

theorem tryPrefixes_some {base : Nat} {dec : Bool} {p body : Str} {ps : List Str} {v : Int}
    (hp : p ∈ ps) (h : ∀ q ∈ ps, q <+: p ++ body → q = p) (hv : pyInt base body = some v) :
    tryPrefixes base dec (p ++ body) ps = some (.ok (v, dec)) := by
  induction ps with
  | nil => simp at hp
  | cons q ps ih =>
    simp only [tryPrefixes]
    by_cases hq : q <+: p ++ body
    · have e := h q (by simp) hq
      subst e
      have h1 : startsWith (q ++ body) q = true := by
        simp only [startsWith, List.isPrefixOf_iff_prefix]; exact hq
      simp [h1, hv]
    · have h1 : startsWith (p ++ body) q = false := by
        simp only [startsWith, ← Bool.not_eq_true, List.isPrefixOf_iff_prefix]; exact hq
      have hne : p ≠ q := by intro e; subst e; exact hq (List.prefix_append _ _)
      simp at hp
      rcases hp with hp | hp
      · exact absurd hp hne
      · simp only [h1]
        exact ih hp (fun q hq' => h q (by simp [hq']))

theorem trySuffixes_none {base : Nat} {dec : Bool} {tok : Str} {ss : List Str}
    (h : ∀ s ∈ ss, s <:+ tok → isDigitStr (dropSuffix tok s) = false) : trySuffixes base dec tok ss = none := by
  induction ss with
  | nil => rfl
  | cons s ss ih =>
    have h1 : (endsWith tok s && isDigitStr (dropSuffix tok s)) = false := by
      by_cases hs : s <:+ tok
      · simp [h s (by simp) hs]
      · have : endsWith tok s = false := by
          simp only [endsWith, ← Bool.not_eq_true, List.isSuffixOf_iff_suffix]; exact hs
        simp [this]
    simp [trySuffixes, h1, ih (fun p hp => h p (by simp [hp]))]

theorem prefix_unique {sy : NumSyntax} (hu : Unambiguous sy) {p q body : Str} (hp : p ∈ allPrefixes sy)
    (hq : q ∈ allPrefixes sy) (h : q <+: p ++ body) : q = p := by
  by_cases e : q = p
  · exact e
  · exfalso
    have hcmp : q <+: p ∨ p <+: q := List.prefix_or_prefix_of_prefix h (List.prefix_append p body)
    have hpw := hu.1
    have : ∀ (l : List Str), l.Pairwise (fun p q => ¬ p <+: q ∧ ¬ q <+: p) → p ∈ l → q ∈ l →
        q ≠ p → ¬ (q <+: p) ∧ ¬ (p <+: q) := by
      intro l
      induction l with
      | nil => intro _ h; simp at h
      | cons x l ih =>
        intro hpw hp hq hne
        rw [List.pairwise_cons] at hpw
        simp at hp hq
        rcases hp with rfl | hp <;> rcases hq with rfl | hq
        · exact absurd rfl hne
        · exact ⟨(hpw.1 q hq).2, (hpw.1 q hq).1⟩
        · exact hpw.1 p hp
        · exact ih hpw.2 hp hq hne
    have := this _ hpw hp hq e
    rcases hcmp with h | h
    · exact this.1 h
    · exact this.2 h

theorem internalParse_prefixed {sy : NumSyntax} (hu : Unambiguous sy) {p body : Str} {v : Int}
    {base : Nat} {dec : Bool}
    (hp : (base = 16 ∧ dec = false ∧ p ∈ sy.hexPrefixes) ∨ (base = 2 ∧ dec = false ∧ p ∈ sy.binPrefixes) ∨
      (base = 8 ∧ dec = false ∧ p ∈ sy.octPrefixes) ∨ (base = 10 ∧ dec = true ∧ p ∈ sy.decPrefixes))
    (hv : pyInt base body = some v) :
    internalParseInteger sy (p ++ body) = .ok (some (v, dec)) := by
  have hmem : p ∈ allPrefixes sy := by
    simp only [allPrefixes, List.mem_append]
    rcases hp with ⟨_, _, h⟩ | ⟨_, _, h⟩ | ⟨_, _, h⟩ | ⟨_, _, h⟩ <;> simp [h]
  obtain ⟨hne, hhd, _⟩ := hu.2 p hmem
  have huniq : ∀ q ∈ allPrefixes sy, q <+: p ++ body → q = p := fun q hq h => prefix_unique hu hmem hq h
  have hdis : ∀ (l1 l2 : List Str), allPrefixes sy = l1 ++ l2 → p ∈ l2 → ∀ q ∈ l1, ¬ q <+: p ++ body := by
    intro l1 l2 e h2 q hq h
    have e2 := huniq q (by rw [e]; simp [hq]) h
    subst e2
    have := hu.1
    rw [e, List.pairwise_append] at this
    exact (this.2.2 q hq q h2).1 (List.prefix_refl _)
  have hrest : internalParseInteger.rest sy (p ++ body) = .ok (some (v, dec)) := by
    unfold internalParseInteger.rest
    rcases hp with ⟨rfl, rfl, h⟩ | ⟨rfl, rfl, h⟩ | ⟨rfl, rfl, h⟩ | ⟨rfl, rfl, h⟩
    · rw [tryPrefixes_some h (fun q hq => huniq q (by simp [allPrefixes, hq])) hv]; rfl
    · rw [tryPrefixes_none (ps := sy.hexPrefixes)
          (hdis _ (sy.binPrefixes ++ sy.octPrefixes ++ sy.decPrefixes) (by simp [allPrefixes]) (by simp [h])),
        tryPrefixes_some h (fun q hq => huniq q (by simp [allPrefixes, hq])) hv]; rfl
    · have := hdis (sy.hexPrefixes ++ sy.binPrefixes) (sy.octPrefixes ++ sy.decPrefixes)
        (by simp [allPrefixes]) (by simp [h])
      rw [tryPrefixes_none (ps := sy.hexPrefixes) (fun q hq => this q (by simp [hq])),
        tryPrefixes_none (ps := sy.binPrefixes) (fun q hq => this q (by simp [hq])),
        tryPrefixes_some h (fun q hq => huniq q (by simp [allPrefixes, hq])) hv]; rfl
    · have := hdis (sy.hexPrefixes ++ sy.binPrefixes ++ sy.octPrefixes) sy.decPrefixes
        (by simp [allPrefixes]) (by simp [h])
      rw [tryPrefixes_none (ps := sy.hexPrefixes) (fun q hq => this q (by simp [hq])),
        tryPrefixes_none (ps := sy.binPrefixes) (fun q hq => this q (by simp [hq])),
        tryPrefixes_none (ps := sy.octPrefixes) (fun q hq => this q (by simp [hq])),
        tryPrefixes_some h (fun q hq => huniq q (by simp [allPrefixes, hq])) hv]; rfl
  cases p with
  | nil => exact absurd rfl hne
  | cons x xs =>
    have hx : x ≠ '\'' := by intro e; subst e; simp at hhd
    unfold internalParseInteger
    split
    · rename_i h; simp at h
    · rename_i h; simp at h; exact absurd h.1 hx
    · exact hrest

theorem Reads.digits {v : Nat} {s : Str} (h : Reads 10 s v) : ∀ c ∈ s, c.isDigit = true := by
  intro c hc
  obtain ⟨d, h1⟩ := Reads.mem h c hc
  exact (IsDigit.facts (by decide) h1).2.2.2.2.2.2.2.2.2.2.2.2.2.2 h1.1

theorem Reads.noFormula {b v : Nat} {s : Str} (hb' : b ≤ 16) (h : Reads b s v) :
    ∀ c ∈ s, isOp c = false ∧ isPre c = false := by
  intro c hc
  obtain ⟨d, h1⟩ := Reads.mem h c hc
  have := IsDigit.facts hb' h1
  exact ⟨this.2.2.2.1, this.2.2.2.2.1⟩

/-- A token whose characters are all decimal digits or minus signs matches no prefix or suffix. -/
theorem internalParse_decimal {sy : NumSyntax} (hd : PlainDecimal sy) {tok : Str} {v : Int}
    (hne : tok ≠ []) (hc : ∀ c ∈ tok, c.isDigit = true ∨ c = '-') (hv : pyInt 10 tok = some v) :
    internalParseInteger sy tok = .ok (some (v, true)) := by
  have hpre : ∀ p ∈ allPrefixes sy, ¬ p <+: tok := by
    intro p hp h
    obtain ⟨c, h1, h2, h3⟩ := hd.1 p hp
    rcases hc c (h.subset h1) with h | h
    · rw [h] at h2; simp at h2
    · exact h3 h
  have hsuf : ∀ s ∈ allSuffixes sy, s <:+ tok → isDigitStr (dropSuffix tok s) = false := by
    intro p hp h
    exfalso
    obtain ⟨c, h1, h2, h3⟩ := hd.2 p hp
    rcases hc c (h.subset h1) with h | h
    · rw [h] at h2; simp at h2
    · exact h3 h
  have hrest : internalParseInteger.rest sy tok = .ok (some (v, true)) := by
    unfold internalParseInteger.rest
    rw [tryPrefixes_none (ps := sy.hexPrefixes) (fun q hq => hpre q (by simp [allPrefixes, hq])),
      tryPrefixes_none (ps := sy.binPrefixes) (fun q hq => hpre q (by simp [allPrefixes, hq])),
      tryPrefixes_none (ps := sy.octPrefixes) (fun q hq => hpre q (by simp [allPrefixes, hq])),
      tryPrefixes_none (ps := sy.decPrefixes) (fun q hq => hpre q (by simp [allPrefixes, hq])),
      trySuffixes_none (ss := sy.hexSuffixes) (fun q hq => hsuf q (by simp [allSuffixes, hq])),
      trySuffixes_none (ss := sy.binSuffixes) (fun q hq => hsuf q (by simp [allSuffixes, hq])),
      trySuffixes_none (ss := sy.octSuffixes) (fun q hq => hsuf q (by simp [allSuffixes, hq])),
      trySuffixes_none (ss := sy.decSuffixes) (fun q hq => hsuf q (by simp [allSuffixes, hq]))]
    simp [orTry, hv]
  cases tok with
  | nil => exact absurd rfl hne
  | cons x xs =>
    have hx : x ≠ '\'' := by
      intro e; subst e
      have := hc '\'' (by simp)
      revert this; decide
    unfold internalParseInteger
    split
    · rename_i h; simp at h
    · rename_i h; simp at h; exact absurd h.1 hx
    · exact hrest

theorem trySuffixes_some {base : Nat} {dec : Bool} {p body : Str} {ps : List Str} {v : Int}
    (hp : p ∈ ps) (hne : ∀ q ∈ ps, q ≠ []) (h : ∀ q ∈ ps, q <:+ body ++ p → q = p)
    (hd : isDigitStr body = true) (hv : pyInt base body = some v) :
    trySuffixes base dec (body ++ p) ps = some (.ok (v, dec)) := by
  induction ps with
  | nil => simp at hp
  | cons q ps ih =>
    simp only [trySuffixes]
    by_cases hq : q <:+ body ++ p
    · have e := h q (by simp) hq
      subst e
      have h1 : endsWith (body ++ q) q = true := by
        simp only [endsWith, List.isSuffixOf_iff_suffix]; exact hq
      have h2 : dropSuffix (body ++ q) q = body := by
        simp [dropSuffix, hne q (by simp)]
      simp [h1, h2, hd, hv]
    · have h1 : endsWith (body ++ p) q = false := by
        simp only [endsWith, ← Bool.not_eq_true, List.isSuffixOf_iff_suffix]; exact hq
      have hne' : p ≠ q := by intro e; subst e; exact hq (List.suffix_append _ _)
      simp at hp
      rcases hp with hp | hp
      · exact absurd hp hne'
      · simp only [h1]
        exact ih hp (fun q hq' => hne q (by simp [hq'])) (fun q hq' => h q (by simp [hq']))

theorem suffix_unique {sy : NumSyntax} (hu : SuffixFree sy) {p q body : Str} (hp : p ∈ allSuffixes sy)
    (hq : q ∈ allSuffixes sy) (h : q <:+ body ++ p) : q = p := by
  by_cases e : q = p
  · exact e
  · exfalso
    have hcmp : q <:+ p ∨ p <:+ q := List.suffix_or_suffix_of_suffix h (List.suffix_append body p)
    have : ∀ (l : List Str), l.Pairwise (fun p q => ¬ p <:+ q ∧ ¬ q <:+ p) → p ∈ l → q ∈ l →
        q ≠ p → ¬ (q <:+ p) ∧ ¬ (p <:+ q) := by
      intro l
      induction l with
      | nil => intro _ h; simp at h
      | cons x l ih =>
        intro hpw hp hq hne
        rw [List.pairwise_cons] at hpw
        simp at hp hq
        rcases hp with rfl | hp <;> rcases hq with rfl | hq
        · exact absurd rfl hne
        · exact ⟨(hpw.1 q hq).2, (hpw.1 q hq).1⟩
        · exact hpw.1 p hp
        · exact ih hpw.2 hp hq hne
    have := this _ hu.1 hp hq e
    rcases hcmp with h | h
    · exact this.1 h
    · exact this.2 h

theorem internalParse_suffixed {sy : NumSyntax} (hu : SuffixFree sy) {p body : Str} {v : Int}
    {base : Nat} {dec : Bool}
    (hp : (base = 16 ∧ dec = false ∧ p ∈ sy.hexSuffixes) ∨ (base = 2 ∧ dec = false ∧ p ∈ sy.binSuffixes) ∨
      (base = 8 ∧ dec = false ∧ p ∈ sy.octSuffixes) ∨ (base = 10 ∧ dec = true ∧ p ∈ sy.decSuffixes))
    (hnp : ∀ q ∈ allPrefixes sy, ¬ q <+: body ++ p)
    (hd : isDigitStr body = true) (hv : pyInt base body = some v) :
    internalParseInteger sy (body ++ p) = .ok (some (v, dec)) := by
  have hmem : p ∈ allSuffixes sy := by
    simp only [allSuffixes, List.mem_append]
    rcases hp with ⟨_, _, h⟩ | ⟨_, _, h⟩ | ⟨_, _, h⟩ | ⟨_, _, h⟩ <;> simp [h]
  have huniq : ∀ q ∈ allSuffixes sy, q <:+ body ++ p → q = p := fun q hq h => suffix_unique hu hmem hq h
  have hne : ∀ q ∈ allSuffixes sy, q ≠ [] := fun q hq => (hu.2 q hq).1
  have hdis : ∀ (l1 l2 : List Str), allSuffixes sy = l1 ++ l2 → p ∈ l2 → ∀ q ∈ l1, q <:+ body ++ p →
      isDigitStr (dropSuffix (body ++ p) q) = false := by
    intro l1 l2 e h2 q hq h
    exfalso
    have e2 := huniq q (by rw [e]; simp [hq]) h
    subst e2
    have := hu.1
    rw [e, List.pairwise_append] at this
    exact (this.2.2 q hq q h2).1 (List.suffix_refl _)
  have hrest : internalParseInteger.rest sy (body ++ p) = .ok (some (v, dec)) := by
    unfold internalParseInteger.rest
    rw [tryPrefixes_none (ps := sy.hexPrefixes) (fun q hq => hnp q (by simp [allPrefixes, hq])),
      tryPrefixes_none (ps := sy.binPrefixes) (fun q hq => hnp q (by simp [allPrefixes, hq])),
      tryPrefixes_none (ps := sy.octPrefixes) (fun q hq => hnp q (by simp [allPrefixes, hq])),
      tryPrefixes_none (ps := sy.decPrefixes) (fun q hq => hnp q (by simp [allPrefixes, hq]))]
    rcases hp with ⟨rfl, rfl, h⟩ | ⟨rfl, rfl, h⟩ | ⟨rfl, rfl, h⟩ | ⟨rfl, rfl, h⟩
    · rw [trySuffixes_some h (fun q hq => hne q (by simp [allSuffixes, hq]))
        (fun q hq => huniq q (by simp [allSuffixes, hq])) hd hv]; rfl
    · rw [trySuffixes_none (ss := sy.hexSuffixes)
          (hdis _ (sy.binSuffixes ++ sy.octSuffixes ++ sy.decSuffixes) (by simp [allSuffixes]) (by simp [h])),
        trySuffixes_some h (fun q hq => hne q (by simp [allSuffixes, hq]))
          (fun q hq => huniq q (by simp [allSuffixes, hq])) hd hv]; rfl
    · have := hdis (sy.hexSuffixes ++ sy.binSuffixes) (sy.octSuffixes ++ sy.decSuffixes)
        (by simp [allSuffixes]) (by simp [h])
      rw [trySuffixes_none (ss := sy.hexSuffixes) (fun q hq => this q (by simp [hq])),
        trySuffixes_none (ss := sy.binSuffixes) (fun q hq => this q (by simp [hq])),
        trySuffixes_some h (fun q hq => hne q (by simp [allSuffixes, hq]))
          (fun q hq => huniq q (by simp [allSuffixes, hq])) hd hv]; rfl
    · have := hdis (sy.hexSuffixes ++ sy.binSuffixes ++ sy.octSuffixes) sy.decSuffixes
        (by simp [allSuffixes]) (by simp [h])
      rw [trySuffixes_none (ss := sy.hexSuffixes) (fun q hq => this q (by simp [hq])),
        trySuffixes_none (ss := sy.binSuffixes) (fun q hq => this q (by simp [hq])),
        trySuffixes_none (ss := sy.octSuffixes) (fun q hq => this q (by simp [hq])),
        trySuffixes_some h (fun q hq => hne q (by simp [allSuffixes, hq]))
          (fun q hq => huniq q (by simp [allSuffixes, hq])) hd hv]; rfl
  cases body with
  | nil => simp [isDigitStr] at hd
  | cons x xs =>
    have hx : x ≠ '\'' := by
      intro e; subst e
      simp [isDigitStr] at hd
    unfold internalParseInteger
    split
    · rename_i h; simp at h
    · rename_i h; simp at h; exact absurd h.1 hx
    · exact hrest

/-! ## prefix operators -/

theorem applyPre_foldl_gt (k : Nat) (p : PreState) :
    ((List.replicate k '>').foldl preStep p) = { p with value := p.value / 256 ^ k } := by
  induction k generalizing p with
  | zero => simp
  | succ k ih =>
    rw [List.replicate_succ, List.foldl_cons, ih]
    simp only [preStep, if_true, pyShr]
    congr 1
    rw [Int.pow_succ', Int.ediv_ediv_of_nonneg (by decide)]
    rfl

theorem preStep_lt_value (v : Int) (k : Nat) :
    pyOr (v % 256 ^ k) (pyShl (pyAnd (pyShr v (8 * k)) 0xFF) (8 * k)) = v % 256 ^ (k + 1) := by
  have h256 : ∀ k : Nat, (256 : Int) ^ k = 2 ^ (8 * k) := by
    intro k; rw [Int.pow_mul]; rfl
  have hff : (0xFF : Int) = ((2 ^ 8 - 1 : Nat) : Int) := rfl
  apply bit_ext
  intro i
  rw [h256, h256, bit_pyOr, bit_emod_pow, bit_emod_pow, bit_pyShl, hff, bit_pyAnd, bit_mask, bit_pyShr]
  by_cases h1 : i < 8 * k
  · have : i < 8 * (k + 1) := by omega
    have h3 : ¬ 8 * k ≤ i := by omega
    simp [h1, this, h3]
  · have h3 : 8 * k ≤ i := by omega
    have h4 : i - 8 * k + 8 * k = i := by omega
    by_cases h2 : i < 8 * (k + 1)
    · have : i - 8 * k < 8 := by omega
      simp [h1, h2, h3, h4, this]
    · have : ¬ i - 8 * k < 8 := by omega
      simp [h1, h2, this]

theorem applyPre_foldl_lt (k : Nat) (v : Int) (j : Nat) :
    ((List.replicate k '<').foldl preStep { value := v, low := j, shifted := v % 256 ^ j, has := true }) =
      { value := v, low := j + k, shifted := v % 256 ^ (j + k), has := true } := by
  induction k generalizing j with
  | zero => simp
  | succ k ih =>
    rw [List.replicate_succ, List.foldl_cons]
    have : preStep { value := v, low := j, shifted := v % 256 ^ j, has := true } '<' =
        { value := v, low := j + 1, shifted := v % 256 ^ (j + 1), has := true } := by
      simp only [preStep]
      rw [if_neg (by decide), if_pos trivial, preStep_lt_value]
    rw [this, ih]
    have : j + 1 + k = j + (k + 1) := by omega
    rw [this]

theorem applyPre_lt_start (k : Nat) (v : Int) :
    ((List.replicate (k + 1) '<').foldl preStep { value := v }) =
      { value := v, low := k + 1, shifted := v % 256 ^ (k + 1), has := true } := by
  rw [List.replicate_succ, List.foldl_cons]
  have : preStep { value := v } '<' = { value := v, low := 1, shifted := v % 256 ^ 1, has := true } := by
    have h := preStep_lt_value v 0
    simp only [preStep]
    rw [if_neg (by decide), if_pos trivial]
    have e : v % 256 ^ 0 = 0 := by simp [Int.emod_one]
    rw [e] at h
    rw [h]
  rw [this, applyPre_foldl_lt, Nat.add_comm 1 k]

end Necro
