import Verif.Props.LinkHooks
import Verif.Props.Data
/-!
# C41: forward and backward references
-/

namespace Necro
open Spec
open M (throw get modify lift forEach)

/-- The same state with another label table. -/
def withLabels (ls : Labels) (s : St) : St := { s with labels := ls }

/-- An argument of a data directive that does not ask for the value of a label at once: a
quoted string, a number without operators, or a label with or without a formula around
it. -/
def Stable (sy : NumSyntax) (a : Str) : Prop :=
  Quoted a ∨ ∃ pre body ops, WrittenFormula pre body ops ∧ a = pre ++ body ++ writeOps ops ∧
    (internalParseInteger sy body = .ok none ∨ ops = [])

theorem parse_stable {sy : NumSyntax} {a : Str} (h : Stable sy a) (hq : ¬ Quoted a) (ls ls' : Labels) (b : Nat) (sg : Bool) :
    parseInteger sy ls a b sg = parseInteger sy ls' a b sg := by
  rcases h with h | ⟨pre, body, ops, hw, rfl, h⟩
  · exact absurd h hq
  · unfold parseInteger parseIntegerW
    simp only [hw.decompose]
    rcases h with h | rfl
    · rw [h]
    · cases internalParseInteger sy body with
      | error e => rfl
      | ok o => cases o <;> rfl

theorem dataItem_withLabels {d : Dialect} {size : Nat} {enc : Str → Except Err Bytes} {pack : Int → Except Err Bytes}
    {a : Str} (h : Stable d.sy a) (ls : Labels) (s : St) :
    dataItem d size enc pack a (withLabels ls s) =
      ((dataItem d size enc pack a s).1, withLabels ls (dataItem d size enc pack a s).2) := by
  unfold dataItem
  cases a with
  | nil => rfl
  | cons c r =>
    have hf : ∀ s, firstChar (c :: r) s = (.ok c, s) := fun _ => rfl
    rw [bind_eq, bind_eq, hf, hf]
    simp only
    cases hq : isQuote c with
    | true =>
      simp only [if_true]
      rw [bind_eq, bind_eq, lift_eq, lift_eq]
      cases enc (unquote (c :: r)) <;> rfl
    | false =>
      simp only [Bool.false_eq_true, if_false]
      rw [bind_eq, bind_eq]
      unfold parseIntegerOrLabelM
      have hnq : ¬ Quoted (c :: r) := by rw [quoted_iff, hq]; simp
      rw [show (withLabels ls s).labels = ls from rfl]
      rw [parse_stable h hnq ls s.labels]
      cases parseInteger d.sy s.labels (c :: r) (8 * size) (false || (0 : Int) != 0) with
      | error e => rfl
      | ok o =>
        cases o with
        | none =>
          simp only
          rw [bind_eq, bind_eq, lift_eq, lift_eq]
          cases pack 0 <;> rfl
        | some v =>
          simp only
          rw [bind_eq, bind_eq, lift_eq, lift_eq]
          cases pack v <;> rfl

theorem forEach_withLabels {α : Type} {f : α → M Unit} {l : List α}
    (h : ∀ x ∈ l, ∀ (ls : Labels) (s : St), f x (withLabels ls s) = ((f x s).1, withLabels ls (f x s).2)) (ls : Labels) :
    ∀ s, forEach l f (withLabels ls s) = ((forEach l f s).1, withLabels ls (forEach l f s).2) := by
  induction l with
  | nil => intro s; rfl
  | cons x l ih =>
    intro s
    have e : ∀ s, forEach (x :: l) f s = (f x >>= fun _ => forEach l f) s := fun _ => rfl
    rw [e, e, bind_eq, bind_eq, h x (List.mem_cons_self ..)]
    cases hx : f x s with
    | mk r s1 =>
      cases r with
      | error _ => rfl
      | ok _ => simp only; exact ih (fun y hy => h y (List.mem_cons_of_mem _ hy)) s1

/-! ## only the entries of the label table matter to the linker -/

theorem evalArg_congr (sy : NumSyntax) (ls ls' : Labels) (h : ∀ n, dget ls n = dget ls' n) (depth : Nat) :
    evalArg sy ls depth = evalArg sy ls' depth := by
  induction depth with
  | zero => rfl
  | succ n ih =>
    funext a
    simp only [evalArg, ih]
    unfold labelAddressW
    simp only [h]

theorem labelRelative_congr (sy : NumSyntax) (ls ls' : Labels) (h : ∀ n, ls.lookup n = ls'.lookup n) (n : Str) (st : Int) :
    labelRelative sy ls n st = labelRelative sy ls' n st := by
  have h' : ∀ n, dget ls n = dget ls' n := fun n => by rw [dget_eq_lookup, dget_eq_lookup, h]
  unfold labelRelative
  rw [evalArg_congr sy ls ls' h']
  unfold labelAddressW
  simp only [h']

theorem resolveTarget_congr (d : Dialect) (k : LinkerKind) (ls ls' : Labels) (h : ∀ n, ls.lookup n = ls'.lookup n) (r : Reloc) :
    resolveTarget d k ls r = resolveTarget d k ls' r := by
  unfold resolveTarget
  rw [labelRelative_congr d.sy ls ls' h]
  have : labelAddress d.sy ls r.label = labelAddress d.sy ls' r.label := labelRelative_congr d.sy ls ls' h r.label 0
  rw [this]

theorem writeAt_withLabels (ls : Labels) (blob : Bytes) : ∀ (a : Nat) (s : St),
    writeAt a blob (withLabels ls s) = ((writeAt a blob s).1, withLabels ls (writeAt a blob s).2) := by
  induction blob with
  | nil => intro a s; rfl
  | cons b blob ih =>
    intro a s
    have e : ∀ s, writeAt a (b :: blob) s = (setByte a b >>= fun _ => writeAt (a + 1) blob) s := fun _ => rfl
    rw [e, e, bind_eq, bind_eq]
    unfold setByte
    rw [show (withLabels ls s).bytes = s.bytes from rfl]
    by_cases h : a < s.bytes.length
    · rw [if_pos h, if_pos h]; exact ih (a + 1) { s with bytes := s.bytes.set a b }
    · rw [if_neg h, if_neg h]

theorem writeField_withLabels (d : Dialect) (ls : Labels) (a size : Nat) (v : Int) (s : St) :
    writeField d a size v (withLabels ls s) = ((writeField d a size v s).1, withLabels ls (writeField d a size v s).2) := by
  rw [writeField_eq]
  refine forEach_withLabels (fun i _ ls s => ?_) ls s
  unfold orByte
  rw [show (withLabels ls s).bytes = s.bytes from rfl]
  by_cases h : fieldPos d a size i < s.bytes.length
  · rw [if_pos h, if_pos h]; rfl
  · rw [if_neg h, if_neg h]

theorem resolveOne_congr (d : Dialect) (k : LinkerKind) (ls ls' : Labels) (h : ∀ n, ls.lookup n = ls'.lookup n)
    (e : Nat × Reloc) (s : St) :
    resolveOne d k e (withLabels ls' s) =
      ((resolveOne d k e (withLabels ls s)).1, withLabels ls' (resolveOne d k e (withLabels ls s)).2) := by
  cases hk : e.2.hook with
  | some w =>
    rw [resolveOne_hook d k e w hk, resolveOne_hook d k e w hk]
    rw [show (withLabels ls s).labels = ls from rfl, show (withLabels ls' s).labels = ls' from rfl,
      resolveTarget_congr d k ls ls' h]
    cases resolveTarget d k ls' e.2 with
    | error x => rfl
    | ok p => simp only; rw [writeAt_withLabels, writeAt_withLabels]; rfl
  | none =>
    rw [resolveOne_eq d k e hk, resolveOne_eq d k e hk]
    rw [show (withLabels ls s).labels = ls from rfl, show (withLabels ls' s).labels = ls' from rfl]
    unfold linkValue
    rw [resolveTarget_congr d k ls ls' h]
    cases resolveTarget d k ls' e.2 with
    | error x => rfl
    | ok p =>
      simp only
      cases encodeTarget e.2 p.1 p.2 with
      | error x => rfl
      | ok v => simp only; rw [writeField_withLabels, writeField_withLabels]; rfl

/-- C41: linking depends on which labels are defined and where, not on when they were
defined. -/
theorem C41_link (d : Dialect) (k : LinkerKind) (hp : d.postLink = pure ()) (ls ls' : Labels)
    (h : ∀ n, ls.lookup n = ls'.lookup n) (s : St) :
    link d k { s with labels := ls' } =
      ((link d k { s with labels := ls }).1, { (link d k { s with labels := ls }).2 with labels := ls' }) := by
  rw [link_resolve d k hp]
  unfold resolveLabels
  rw [bind_eq, get_eq, bind_eq, get_eq]
  simp only
  have : ∀ (rs : List (Nat × Reloc)) (s : St), forEach rs (resolveOne d k) (withLabels ls' s) =
      ((forEach rs (resolveOne d k) (withLabels ls s)).1, withLabels ls' (forEach rs (resolveOne d k) (withLabels ls s)).2) := by
    intro rs
    induction rs with
    | nil => intro s; rfl
    | cons e rs ih =>
      intro s
      have eq : ∀ s, forEach (e :: rs) (resolveOne d k) s = (resolveOne d k e >>= fun _ => forEach rs (resolveOne d k)) s :=
        fun _ => rfl
      rw [eq, eq, bind_eq, bind_eq, resolveOne_congr d k ls ls' h]
      have hl := (resolveOne_act d k e (withLabels ls s)).2.1
      cases hx : resolveOne d k e (withLabels ls s) with
      | mk r s1 =>
        rw [hx] at hl
        have hs1 : s1 = withLabels ls s1 := by
          have : s1.labels = ls := hl
          unfold withLabels
          rw [← this]
        cases r with
        | error _ => rfl
        | ok _ =>
          simp only
          rw [ih s1, ← hs1]
  exact this s.relocs s

/-- A row of data directives: the words of each. -/
def dataRows (d : Dialect) (env : Env) (rec : Str → M Unit) (rows : List (List Str)) : M Unit :=
  forEach rows (execDirective d env rec)

/-- The words of a data directive with arguments that do not need label values at once. -/
def StableRow (d : Dialect) (env : Env) (defs : List (Str × Str)) (row : List Str) : Prop :=
  ∃ t args name size, row = t :: args ∧ (name, size) ∈ dataSizes ∧ d.directives env (d.key name.toList) = none ∧
    IsDirectiveToken d t name ∧ ∀ a ∈ substituteWithDict args defs 0, Stable d.sy a

theorem execRow_withLabels {d : Dialect} {env : Env} {rec : Str → M Unit} {row : List Str} {s : St}
    (h : StableRow d env s.defines row) (ls : Labels) :
    execDirective d env rec row (withLabels ls s) =
      ((execDirective d env rec row s).1, withLabels ls (execDirective d env rec row s).2) ∧
    (execDirective d env rec row s).2.defines = s.defines := by
  obtain ⟨t, args, name, size, rfl, hn, hc, ht, ha⟩ := h
  have key : ∃ enc pack, ∀ s : St, execDirective d env rec (t :: args) s =
      forEach (substituteWithDict args s.defines 0) (dataItem d size enc pack) s := by
    have one : ∀ m, (m, directiveDb d) ∈ builtinDirective d env rec → IsDirectiveToken d t m →
        d.directives env (d.key m.toList) = none → size = 1 → ∃ enc pack, ∀ s : St, execDirective d env rec (t :: args) s =
        forEach (substituteWithDict args s.defines 0) (dataItem d size enc pack) s := by
      rintro m hb ht hc rfl
      exact ⟨_, _, fun s => by rw [exec_builtin hb hc ht]; rfl⟩
    have two : ∀ m, (m, directiveDw d) ∈ builtinDirective d env rec → IsDirectiveToken d t m →
        d.directives env (d.key m.toList) = none → size = 2 → ∃ enc pack, ∀ s : St, execDirective d env rec (t :: args) s =
        forEach (substituteWithDict args s.defines 0) (dataItem d size enc pack) s := by
      rintro m hb ht hc rfl
      exact ⟨_, _, fun s => by rw [exec_builtin hb hc ht]; simp only [directiveDw, dwItem_eq]; rfl⟩
    have four : ∀ m, (m, directiveDd d) ∈ builtinDirective d env rec → IsDirectiveToken d t m →
        d.directives env (d.key m.toList) = none → size = 4 → ∃ enc pack, ∀ s : St, execDirective d env rec (t :: args) s =
        forEach (substituteWithDict args s.defines 0) (dataItem d size enc pack) s := by
      rintro m hb ht hc rfl
      exact ⟨_, _, fun s => by rw [exec_builtin hb hc ht]; simp only [directiveDd, ddItem_eq]; rfl⟩
    simp only [dataSizes, List.mem_cons, Prod.mk.injEq, List.not_mem_nil, or_false] at hn
    rcases hn with ⟨rfl, rfl⟩ | ⟨rfl, rfl⟩ | ⟨rfl, rfl⟩ | ⟨rfl, rfl⟩ | ⟨rfl, rfl⟩ | ⟨rfl, rfl⟩ | ⟨rfl, rfl⟩
    · exact one _ (by simp [builtinDirective]) ht hc rfl
    · exact one _ (by simp [builtinDirective]) ht hc rfl
    · exact two _ (by simp [builtinDirective]) ht hc rfl
    · exact two _ (by simp [builtinDirective]) ht hc rfl
    · exact four _ (by simp [builtinDirective]) ht hc rfl
    · exact four _ (by simp [builtinDirective]) ht hc rfl
    · exact four _ (by simp [builtinDirective]) ht hc rfl
  obtain ⟨enc, pack, e⟩ := key
  rw [e, e]
  refine ⟨forEach_withLabels (fun a h ls s => dataItem_withLabels (ha a h) ls s) ls s, ?_⟩
  have hd : ∀ (l : List Str) (s : St), (forEach l (dataItem d size enc pack) s).2.defines = s.defines := by
    intro l
    induction l with
    | nil => intro s; rfl
    | cons a l ih =>
      intro s
      have eq : forEach (a :: l) (dataItem d size enc pack) s = (dataItem d size enc pack a >>= fun _ => forEach l (dataItem d size enc pack)) s := rfl
      have h1 : (dataItem d size enc pack a s).2.defines = s.defines := by
        unfold dataItem
        cases a with
        | nil => rfl
        | cons c r =>
          have hf : ∀ s, firstChar (c :: r) s = (.ok c, s) := fun _ => rfl
          rw [bind_eq, hf]
          simp only
          cases isQuote c with
          | true =>
            simp only [if_true]
            rw [bind_eq, lift_eq]
            cases enc (unquote (c :: r)) <;> rfl
          | false =>
            simp only [Bool.false_eq_true, if_false]
            rw [bind_eq]
            unfold parseIntegerOrLabelM
            cases parseInteger d.sy s.labels (c :: r) (8 * size) (false || (0 : Int) != 0) with
            | error e => rfl
            | ok o =>
              cases o with
              | none => simp only; rw [bind_eq, lift_eq]; cases pack 0 <;> rfl
              | some v => simp only; rw [bind_eq, lift_eq]; cases pack v <;> rfl
      rw [eq, bind_eq]
      cases hx : dataItem d size enc pack a s with
      | mk r s1 =>
        rw [hx] at h1
        cases r with
        | error _ => exact h1
        | ok _ => simp only; rw [ih s1]; exact h1
  exact hd _ s

/-- C41: what a row of data directives emits and records does not depend on the labels
defined so far. -/
theorem C41_record (d : Dialect) (env : Env) (rec : Str → M Unit) (rows : List (List Str)) : ∀ (s : St),
    (∀ row ∈ rows, StableRow d env s.defines row) → ∀ ls,
    dataRows d env rec rows { s with labels := ls } =
      ((dataRows d env rec rows s).1, { (dataRows d env rec rows s).2 with labels := ls }) := by
  unfold dataRows
  induction rows with
  | nil => intro s _ ls; rfl
  | cons row rows ih =>
    intro s h ls
    have eq : ∀ s, forEach (row :: rows) (execDirective d env rec) s =
      (execDirective d env rec row >>= fun _ => forEach rows (execDirective d env rec)) s := fun _ => rfl
    obtain ⟨h1, h2⟩ := execRow_withLabels (rec := rec) (h row (List.mem_cons_self ..)) ls
    rw [eq, eq, bind_eq, bind_eq, show { s with labels := ls } = withLabels ls s from rfl, h1]
    cases hx : execDirective d env rec row s with
    | mk r s1 =>
      rw [hx] at h2
      cases r with
      | error _ => rfl
      | ok _ =>
        simp only
        exact ih s1 (fun r hr => by rw [show s1.defines = s.defines from h2]; exact h r (List.mem_cons_of_mem _ hr)) ls

/-- C41: the linked output of data directives is the same whichever labels were already
defined (`before`, `before'`) when they were assembled, as long as the labels end up at the
same addresses (`final`, `final'`). -/
theorem C41_same (d : Dialect) (k : LinkerKind) (hp : d.postLink = pure ()) (env : Env) (rec : Str → M Unit)
    (rows : List (List Str)) (s : St) (before before' final final' : Labels)
    (hrows : ∀ row ∈ rows, StableRow d env s.defines row) (hfin : ∀ n, final.lookup n = final'.lookup n)
    (r r' : Except Err Unit) (t t' : St)
    (h : dataRows d env rec rows { s with labels := before } = (r, t))
    (h' : dataRows d env rec rows { s with labels := before' } = (r', t')) :
    r = r' ∧ (link d k { t with labels := final }).1 = (link d k { t' with labels := final' }).1 ∧
    (link d k { t with labels := final }).2.bytes = (link d k { t' with labels := final' }).2.bytes := by
  rw [C41_record d env rec rows s hrows] at h h'
  injection h with h1 h2
  injection h' with h1' h2'
  subst h2 h2' h1 h1'
  refine ⟨rfl, ?_⟩
  have := C41_link d k hp final final' hfin (dataRows d env rec rows s).2
  simp only at this ⊢
  rw [this]
  exact ⟨rfl, rfl⟩

/-! ## examples -/

theorem stable_label (sy : NumSyntax) (n : Str) (hne : n ≠ []) (hch : ∀ c ∈ n, formulaChar c = false)
    (hnum : internalParseInteger sy n = .ok none) : Stable sy n :=
  .inr ⟨[], n, [], ⟨by simp, hne, hch, by simp⟩, by simp [writeOps], .inl hnum⟩

/-- `.dw x` and `.db "a" 1` with `x` already at 2, or still unknown. -/
example := C41_same {} .dummy rfl {} (fun _ => pure ()) [[".dw".toList, "x".toList], [".db".toList, "\"a\"".toList, "1".toList]]
    {} [("x".toList, ⟨2, 0, none⟩)] [] [("x".toList, ⟨2, 0, none⟩), ("y".toList, ⟨5, 0, none⟩)]
    [("y".toList, ⟨5, 0, none⟩), ("x".toList, ⟨2, 0, none⟩)]
    (by
      intro row hr
      simp only [List.mem_cons, List.not_mem_nil, or_false] at hr
      rcases hr with rfl | rfl
      · refine ⟨_, _, "dw", 2, rfl, by decide, rfl, by unfold IsDirectiveToken; decide +kernel, ?_⟩
        intro a ha
        have e : substituteWithDict ["x".toList] [] 0 = ["x".toList] := by decide +kernel
        rw [show ({} : St).defines = [] from rfl, e] at ha
        simp only [List.mem_cons, List.not_mem_nil, or_false] at ha
        subst ha
        exact stable_label _ _ (by decide) (by decide) (by decide +kernel)
      · refine ⟨_, _, "db", 1, rfl, by decide, rfl, by unfold IsDirectiveToken; decide +kernel, ?_⟩
        intro a ha
        have e : substituteWithDict ["\"a\"".toList, "1".toList] [] 0 = ["\"a\"".toList, "1".toList] := by decide +kernel
        rw [show ({} : St).defines = [] from rfl, e] at ha
        simp only [List.mem_cons, List.not_mem_nil, or_false] at ha
        rcases ha with rfl | rfl
        · exact .inl (by unfold Quoted; decide +kernel)
        · exact .inr ⟨[], "1".toList, [], ⟨by simp, by decide, by decide, by simp⟩, by decide, .inr rfl⟩)
    (by
      intro n
      simp only [List.lookup_cons, List.lookup_nil]
      by_cases h1 : n = "x".toList
      · subst h1; decide +kernel
      · by_cases h2 : n = "y".toList
        · subst h2; decide +kernel
        · have e1 : (n == "x".toList) = false := by simpa using h1
          have e2 : (n == "y".toList) = false := by simpa using h2
          rw [e1, e2])
    _ _ _ _ rfl rfl

/-- The label before the reference, and after it: the same bytes. -/
example : build {} { text := fun _ => some ".org 2\nx:\n.org 0\n.dw x".toList } 1 [[]] = .ok [2#8, 0#8] ∧
    build {} { text := fun _ => some ".dw x\nx:".toList } 1 [[]] = .ok [2#8, 0#8] := by decide +kernel

/-- Disagreement: a formula that begins with a number is evaluated at once, so there the
label must come first. -/
theorem C41_number_first :
    build {} { text := fun _ => some ".org 2\nx:\n.org 0\n.dw 1+x".toList } 1 [[]] = .ok [3#8, 0#8] ∧
    build {} { text := fun _ => some ".dw 1+x\nx:".toList } 1 [[]] = .error (.unknownLabel "x".toList) := by decide +kernel

end Necro
