import Verif.Lemmas.Report
import Verif.Lemmas.ReportMac
/-!
# Every place is a line of a file
-/

namespace Necro

open Spec
open RM (raise done seq each of sites)

section
variable (W : Option Str → Nat → List Str → Prop)

/-- The statements in the bodies of the macros stand where the assembler says. -/
structure SitesOk (x : St × Sites) : Prop where
  stands : ∀ {key m i st}, dget x.1.macros key = some m → m.body[i]? = some st → W (siteOf x.2 key i) st.line st.tokens
  length : ∀ {key m}, dget x.1.macros key = some m → ((dget x.2 key).getD []).length = m.body.length

/-- A place in an error stands where it says. -/
def PlaceOk : Except (Err × Option Place) Unit → Prop
  | .error (_, some p) => W p.file p.line p.tokens
  | _ => True

/-- A step that names only lines of files and leaves the bodies of the macros in order. -/
def Safe (r : RM) : Prop := ∀ x, SitesOk W x → PlaceOk W (r x).1 ∧ ((r x).1 = .ok () → SitesOk W (r x).2)

variable {W}

theorem sites_of_macros {x : St × Sites} (h : SitesOk W x) {s : St} (hs : s.macros = x.1.macros) : SitesOk W (s, x.2) :=
  ⟨fun h1 h2 => h.stands (by rw [← hs]; exact h1) h2, fun h1 => h.length (by rw [← hs]; exact h1)⟩

namespace Safe

theorem raise (e : Err) : Safe W (RM.raise e none) := fun x hx => ⟨trivial, fun h => by cases h⟩
theorem done : Safe W RM.done := fun x hx => ⟨trivial, fun _ => hx⟩

theorem seq {a b : RM} (ha : Safe W a) (hb : Safe W b) : Safe W (RM.seq a b) := by
  intro x hx
  obtain ⟨h1, h2⟩ := ha x hx
  unfold RM.seq
  rcases hr : a x with ⟨r, y⟩
  rw [hr] at h1 h2
  cases r with
  | error e => exact ⟨h1, fun h => by cases h⟩
  | ok u => exact hb y (h2 rfl)

theorem each {l : List α} {f : α → RM} (h : ∀ a ∈ l, Safe W (f a)) : Safe W (RM.each l f) := by
  induction l with
  | nil => exact done
  | cons a l ih => exact seq (h a (by simp)) (ih fun b hb => h b (by simp [hb]))

theorem of {m : M Unit} {p : Err → Option Place} (hm : Keeps SameMac m) (hp : ∀ e q, p e = some q → W q.file q.line q.tokens) : Safe W (RM.of m p) := by
  intro x hx
  have h1 : (m x.1).2.macros = x.1.macros := hm x.1
  unfold RM.of
  rcases hr : m x.1 with ⟨r, s⟩
  rw [hr] at h1
  cases r with
  | ok u => exact ⟨trivial, fun _ => sites_of_macros hx h1⟩
  | error e =>
    refine ⟨?_, fun h => by cases h⟩
    dsimp only [PlaceOk]
    split
    · next q he => injection he with he; injection he with _ he; exact hp _ _ he
    · trivial

end Safe

/-! ## instructions, when no macro is being recorded -/

/-- The lines in the body of a macro. -/
def bodyLines (s : St) (key : Str) : Option (List Nat) := (dget s.macros key).map fun m => m.body.map Stmt.line

/-- `y` has the same macros as `x`, up to the words in the bodies. -/
structure SameBodies (x y : St × Sites) : Prop where
  lines : ∀ key, bodyLines y.1 key = bodyLines x.1 key
  sites : y.2 = x.2
  idle : y.1.recording = x.1.recording

theorem SameBodies.refl (x : St × Sites) : SameBodies x x := ⟨fun _ => rfl, rfl, rfl⟩
theorem SameBodies.trans {x y z : St × Sites} (h : SameBodies x y) (h' : SameBodies y z) : SameBodies x z :=
  ⟨fun k => (h'.lines k).trans (h.lines k), h'.sites.trans h.sites, h'.idle.trans h.idle⟩

/-- What a step at `x` may do. -/
def Quiet (W : Option Str → Nat → List Str → Prop) (x : St × Sites) (r : Except (Err × Option Place) Unit × (St × Sites)) : Prop :=
  PlaceOk W r.1 ∧ (r.1 = .ok () → SitesOk W r.2 ∧ SameBodies x r.2)

theorem quiet_seq {x : St × Sites} {a b : RM} (ha : Quiet W x (a x)) (hb : ∀ y, SitesOk W y → SameBodies x y → Quiet W y (b y)) : Quiet W x (seq a b x) := by
  obtain ⟨h1, h2⟩ := ha
  unfold seq
  rcases hr : a x with ⟨r, y⟩
  rw [hr] at h1 h2
  cases r with
  | error e => exact ⟨h1, fun h => by cases h⟩
  | ok u =>
    obtain ⟨h3, h4⟩ := h2 rfl
    obtain ⟨h5, h6⟩ := hb y h3 h4
    exact ⟨h5, fun h => ⟨(h6 h).1, h4.trans (h6 h).2⟩⟩

theorem quiet_each {l : List α} {f : α → RM} {x : St × Sites} (hx : SitesOk W x) (h : ∀ a ∈ l, ∀ y, SitesOk W y → SameBodies x y → Quiet W y (f a y)) :
    Quiet W x (each l f x) := by
  induction l generalizing x with
  | nil => exact ⟨trivial, fun _ => ⟨hx, .refl x⟩⟩
  | cons a l ih =>
    refine quiet_seq (h a (by simp) x hx (.refl x)) fun y hy hxy => ih hy fun b hb z hz hyz => h b (by simp [hb]) z hz (hxy.trans hyz)

/-- Statement `ref` of the body of a macro is at `line` of `file`. -/
def RefOk (x : St × Sites) (file : Option Str) (line : Nat) : StmtRef → Prop
  | none => True
  | some (key, i) => siteOf x.2 key i = file ∧ ∃ l, bodyLines x.1 key = some l ∧ l[i]? = some line

theorem RefOk.same {x y : St × Sites} (h : SameBodies x y) {file : Option Str} {line : Nat} {ref : StmtRef} (hr : RefOk x file line ref) : RefOk y file line ref := by
  cases ref with
  | none => trivial
  | some p =>
    obtain ⟨key, i⟩ := p
    obtain ⟨h1, l, h2, h3⟩ := hr
    exact ⟨by rw [h.sites]; exact h1, l, by rw [h.lines]; exact h2, h3⟩

theorem quiet_setBody {x : St × Sites} (hx : SitesOk W x) {file : Option Str} {line : Nat} {key : Str} {i : Nat} {tokens : List Str}
    (hr : RefOk x file line (some (key, i))) (hw : W file line tokens) : Quiet W x (of (setBodyTokens key i tokens) (fun _ => none) x) := by
  refine ⟨trivial, fun _ => ?_⟩
  obtain ⟨hs, l, hl, hi⟩ := hr
  show SitesOk W ((setBodyTokens key i tokens x.1).2, x.2) ∧ SameBodies x ((setBodyTokens key i tokens x.1).2, x.2)
  unfold setBodyTokens
  rw [modify_eq]
  dsimp only
  unfold bodyLines at hl
  cases hm : dget x.1.macros key with
  | none => rw [hm] at hl; cases hl
  | some m =>
    rw [hm] at hl
    injection hl with hl
    dsimp only
    have hmap : (m.body.modify i fun st => { st with tokens := tokens }).map Stmt.line = m.body.map Stmt.line := by
      apply List.ext_getElem?
      intro j
      simp only [List.getElem?_map, List.getElem?_modify]
      cases m.body[j]? with
      | none => rfl
      | some st => by_cases h : i = j <;> simp [h]
    refine ⟨⟨?_, ?_⟩, ⟨?_, rfl, rfl⟩⟩
    · intro k m' j st h1 h2
      rw [show dget (dset x.1.macros key _) k = _ from dget_dset _ _ _ _] at h1
      by_cases hk : key = k
      · rw [if_pos hk] at h1
        cases h1
        subst hk
        rw [List.getElem?_modify] at h2
        cases hj : m.body[j]? with
        | none => rw [hj] at h2; cases h2
        | some st0 =>
          rw [hj] at h2
          by_cases hij : i = j
          · subst hij
            have : st0.line = line := by
              rw [← hl, List.getElem?_map, hj] at hi
              injection hi
            simp at h2
            subst h2
            rw [hs]
            dsimp only
            rw [this]
            exact hw
          · simp [hij] at h2
            subst h2
            exact hx.stands hm hj
      · rw [if_neg hk] at h1
        exact hx.stands h1 h2
    · intro k m' h1
      rw [show dget (dset x.1.macros key _) k = _ from dget_dset _ _ _ _] at h1
      by_cases hk : key = k
      · rw [if_pos hk] at h1
        cases h1
        subst hk
        rw [hx.length hm, List.length_modify]
      · rw [if_neg hk] at h1
        exact hx.length h1
    · intro k
      unfold bodyLines
      rw [show dget (dset x.1.macros key _) k = _ from dget_dset _ _ _ _]
      by_cases hk : key = k
      · rw [if_pos hk]
        subst hk
        rw [hm]
        simp only [Option.map_some, hmap]
      · rw [if_neg hk]

theorem quiet_writeBack {x : St × Sites} (hx : SitesOk W x) {file : Option Str} {line : Nat} {ref : StmtRef} {tokens : List Str}
    (hr : RefOk x file line ref) (hw : W file line tokens) : Quiet W x (of (writeBack ref tokens) (fun _ => none) x) := by
  cases ref with
  | none => exact ⟨trivial, fun _ => ⟨hx, .refl x⟩⟩
  | some p => exact quiet_setBody hx hr hw

theorem relocs_macros : ∀ (rs : List Reloc) (s : St), (rs.foldl addReloc s).macros = s.macros ∧ (rs.foldl addReloc s).recording = s.recording
  | [], _ => ⟨rfl, rfl⟩
  | r :: rs, s => relocs_macros rs (addReloc s r)

theorem quiet_encode {x : St × Sites} (hx : SitesOk W x) (d : Dialect) (t : Str) (tokens : List Str) {p : Place} (hw : W p.file p.line p.tokens) :
    Quiet W x (of (encodeLine d t tokens) (fun _ => some p) x) := by
  have key : ∀ {s : St} {r : Except Err Unit}, encodeLine d t tokens x.1 = (r, s) → s.macros = x.1.macros ∧ s.recording = x.1.recording := by
    intro s r h
    have hk : Keeps (fun s s' => s'.macros = s.macros ∧ s'.recording = s.recording) (encodeLine d t tokens) := by
      have hd : DataRel (fun s s' : St => s'.macros = s.macros ∧ s'.recording = s.recording) :=
        ⟨fun _ => ⟨rfl, rfl⟩, fun h1 h2 => ⟨h2.1.trans h1.1, h2.2.trans h1.2⟩, fun _ _ => ⟨rfl, rfl⟩, fun _ _ => ⟨rfl, rfl⟩⟩
      unfold encodeLine
      split
      · exact .throw hd _
      · split
        · exact .throw hd _
        · exact .appendBytes hd _
      · refine .bind hd (fun s => ?_) fun _ => .appendBytes hd _
        rw [runHandler_state]
        exact relocs_macros _ s
    have := hk x.1
    rw [h] at this
    exact this
  unfold of
  rcases he : encodeLine d t tokens x.1 with ⟨r, s⟩
  obtain ⟨h1, h2⟩ := key he
  cases r with
  | error e => exact ⟨hw, fun h => by cases h⟩
  | ok u =>
    refine ⟨trivial, fun _ => ⟨sites_of_macros hx h1, fun k => ?_, rfl, h2⟩⟩
    unfold bodyLines
    rw [h1]

/-- Replacing names does not move a line. -/
def Movable (W : Option Str → Nat → List Str → Prop) : Prop := ∀ {file line tokens} dict k, W file line tokens → W file line (substituteWithDict tokens dict k)

theorem quiet_execInstr (hW : Movable W) (d : Dialect) : ∀ n file ref st x, SitesOk W x → x.1.recording = none → W file st.line st.tokens →
    RefOk x file st.line ref → Quiet W x (execInstrR d n file ref st x)
  | 0, _, _, _, x, _, _, _, _ => ⟨trivial, fun h => by cases h⟩
  | n + 1, file, ref, st, x, hx, hi, hw, hr => by
    unfold execInstrR
    rw [hi]
    dsimp only
    have hw' := hW x.1.defines 0 hw
    refine quiet_seq (quiet_writeBack hx hr hw') fun y hy hxy => ?_
    generalize substituteWithDict st.tokens x.1.defines 0 = tokens at hw'
    cases tokens with
    | nil => exact ⟨trivial, fun h => by cases h⟩
    | cons t rest =>
      dsimp only
      cases dget x.1.macros (d.key t) with
      | none => exact quiet_encode hy d t (t :: rest) (p := ⟨file, st.line, t :: rest⟩) hw'
      | some m =>
        refine quiet_each hy fun i _ z hz hyz => ?_
        unfold macroStepR
        cases hm : dget z.1.macros (d.key t) with
        | none => exact ⟨trivial, fun h => by cases h⟩
        | some m' =>
          dsimp only
          cases hb : m'.body[i]? with
          | none => exact ⟨trivial, fun _ => ⟨hz, .refl z⟩⟩
          | some st' =>
            dsimp only
            cases macroDict m.args (List.drop 1 (t :: rest)) [] with
            | error e => exact ⟨trivial, fun h => by cases h⟩
            | ok md =>
              dsimp only
              have h0 := hz.stands hm hb
              have hro : RefOk z (siteOf z.2 (d.key t) i) st'.line (some (d.key t, i)) :=
                ⟨rfl, m'.body.map Stmt.line, by unfold bodyLines; rw [hm]; rfl, by rw [List.getElem?_map, hb]; rfl⟩
              refine quiet_seq (quiet_setBody hz hro (hW md 0 h0)) fun u hu hzu => ?_
              refine quiet_seq (quiet_execInstr hW d n _ _ _ u hu ?_ (hW md 0 h0) (hro.same hzu)) fun v hv huv => ?_
              · rw [hzu.idle, hyz.idle, hxy.idle]; exact hi
              · exact quiet_setBody hv ((hro.same hzu).same huv) h0

theorem safe_execInstr (hW : Movable W) (d : Dialect) (n : Nat) {file : Option Str} {st : Stmt} (hw : W file st.line st.tokens) :
    Safe W (execInstrR d n file none st) := by
  intro x hx
  cases hi : x.1.recording with
  | none =>
    obtain ⟨h1, h2⟩ := quiet_execInstr hW d n file none st x hx hi hw trivial
    exact ⟨h1, fun h => (h2 h).1⟩
  | some key =>
    cases n with
    | zero => exact ⟨trivial, fun h => by cases h⟩
    | succ n =>
      unfold execInstrR
      rw [hi]
      dsimp only
      unfold seq of recordStmt
      cases hm : dget x.1.macros key with
      | none => exact ⟨trivial, fun h => by cases h⟩
      | some m =>
        dsimp only [sites]
        refine ⟨trivial, fun _ => ⟨?_, ?_⟩⟩
        · intro k m' j st' h1 h2
          rw [show dget (dset x.1.macros key _) k = _ from dget_dset _ _ _ _] at h1
          unfold siteOf
          rw [show dget (dset x.2 key _) k = _ from dget_dset _ _ _ _]
          by_cases hk : key = k
          · rw [if_pos hk] at h1 ⊢
            cases h1
            subst hk
            have hl := hx.length hm
            simp only [Option.getD_some]
            dsimp only at h2
            rw [List.getElem?_append] at h2 ⊢
            rw [hl]
            by_cases hj : j < m.body.length
            · rw [if_pos hj] at h2 ⊢
              exact hx.stands hm h2
            · rw [if_neg hj] at h2 ⊢
              rw [List.getElem?_singleton] at h2 ⊢
              by_cases h0 : j - m.body.length = 0
              · rw [if_pos h0] at h2 ⊢
                cases h2
                exact hw
              · rw [if_neg h0] at h2; cases h2
          · rw [if_neg hk] at h1 ⊢
            exact hx.stands h1 h2
        · intro k m' h1
          rw [show dget (dset x.1.macros key _) k = _ from dget_dset _ _ _ _] at h1
          rw [show dget (dset x.2 key _) k = _ from dget_dset _ _ _ _]
          by_cases hk : key = k
          · rw [if_pos hk] at h1 ⊢
            cases h1
            subst hk
            simp [hx.length hm]
          · rw [if_neg hk] at h1 ⊢
            exact hx.length h1

theorem place_some {α : Type} {c : Prop} [Decidable c] {p q : α} (h : (if c then some p else none) = some q) : q = p := by
  split at h
  · cases h; rfl
  · cases h

theorem directivePlace_some {d : Dialect} {key : Str} {p q : Place} {e : Err} (h : directivePlace d key p e = some q) : q = p := by
  cases e <;> simp only [directivePlace] at h <;> first
    | (cases h; done)
    | (cases h; rfl)
    | exact place_some h
    | (split at h <;> cases h; rfl)

theorem safe_macro {d : Dialect} {env : Env} {rec : Str → M Unit} {tokens : List Str} {t : Str} {rest : List Str} {x : St × Sites} (hx : SitesOk W x)
    (he : substituteWithDict tokens x.1.defines 1 = t :: rest) (h1 : d.directives env (d.key (t.drop 1)) = none) (h2 : d.key (t.drop 1) = d.key "macro".toList)
    {s : St} (ho : execDirective d env rec tokens x.1 = (.ok (), s)) :
    SitesOk W (s, match s.recording with | some k => dset x.2 k [] | none => x.2) := by
  have hl : lookupDirective d env rec (d.key (t.drop 1)) = some (directiveMacro d) := by
    rw [h2]
    exact lookup_builtin (p := ("macro", directiveMacro d)) (by simp [builtinDirective]) (by rw [h2] at h1; exact h1)
  unfold execDirective at ho
  rw [bind_eq, get_eq] at ho
  dsimp only at ho
  rw [he] at ho
  dsimp only at ho
  rw [hl] at ho
  replace ho : directiveMacro d (t :: rest) x.1 = (.ok (), s) := ho
  unfold directiveMacro at ho
  rw [bind_eq, get_eq] at ho
  dsimp only at ho
  cases hr : x.1.recording with
  | some k => rw [hr] at ho; cases ho
  | none =>
    rw [hr] at ho
    dsimp only at ho
    cases rest with
    | nil => cases ho
    | cons name args =>
      replace ho : (Except.ok (), { x.1 with macros := dset x.1.macros (d.key name) { args := args }, recording := some (d.key name) }) = ((.ok (), s) : Except Err Unit × St) := ho
      cases ho
      dsimp only
      refine ⟨?_, ?_⟩
      · intro k m' j st' h3 h4
        rw [show dget (dset x.1.macros (d.key name) _) k = _ from dget_dset _ _ _ _] at h3
        unfold siteOf
        rw [show dget (dset x.2 (d.key name) _) k = _ from dget_dset _ _ _ _]
        by_cases hk : d.key name = k
        · rw [if_pos hk] at h3
          cases h3
          cases h4
        · rw [if_neg hk] at h3 ⊢
          exact hx.stands h3 h4
      · intro k m' h3
        rw [show dget (dset x.1.macros (d.key name) _) k = _ from dget_dset _ _ _ _] at h3
        rw [show dget (dset x.2 (d.key name) _) k = _ from dget_dset _ _ _ _]
        by_cases hk : d.key name = k
        · rw [if_pos hk] at h3 ⊢
          cases h3
          rfl
        · rw [if_neg hk] at h3 ⊢
          exact hx.length h3

theorem safe_execDirective (hW : Movable W) {d : Dialect} {env : Env} (hc : CustomKeeps d env SameMac) (rec : Str → M Unit) {recR : Option Str → Str → RM}
    (hrec : ∀ name code, env.text name = some code → Safe W (recR (some name) code)) {file : Option Str} {st : Stmt} (hw : W file st.line st.tokens) :
    Safe W (execDirectiveR d env rec recR file st) := by
  intro x hx
  unfold execDirectiveR
  dsimp only
  have hw' := hW x.1.defines 1 hw
  cases he : substituteWithDict st.tokens x.1.defines 1 with
  | nil => exact ⟨trivial, fun h => by cases h⟩
  | cons t rest =>
    rw [he] at hw'
    dsimp only
    split
    · unfold includeR
      split
      · split
        · exact ⟨trivial, fun h => by cases h⟩
        · split
          · exact ⟨trivial, fun h => by cases h⟩
          · next h => exact hrec _ _ h x hx
      · exact ⟨hw', fun h => by cases h⟩
    · next hi =>
      unfold seq of sites
      rcases ho : execDirective d env rec st.tokens x.1 with ⟨r, s⟩
      cases r with
      | error e =>
        refine ⟨?_, fun h => by cases h⟩
        cases hp : directivePlace d (d.key (t.drop 1)) ⟨file, st.line, t :: rest⟩ e with
        | none => simp only [hp]; trivial
        | some q => simp only [hp]; rw [directivePlace_some hp]; exact hw'
      | ok u =>
        refine ⟨trivial, fun _ => ?_⟩
        dsimp only
        split
        · next hm => exact safe_macro hx he (by simpa using hm.1) hm.2 ho
        · next hm =>
          refine sites_of_macros hx ?_
          have := mac_execDirective env rec hc (s := x.1) he (fun h => hm ⟨by rw [h.1]; rfl, h.2⟩) (fun h => hi ⟨by rw [h.1]; rfl, h.2⟩)
          rw [ho] at this
          exact this

theorem mac_execLabel (d : Dialect) (l : List Str) : Keeps SameMac (execLabel d l) := by
  intro s
  unfold execLabel
  split
  · rfl
  · split
    · rfl
    · split
      · rfl
      · split
        · rfl
        · split <;> rfl

theorem labelPlace_some {p q : Place} {e : Err} (h : labelPlace p e = some q) : q = p := by
  cases e <;> simp only [labelPlace] at h <;> cases h <;> rfl

theorem safe_assemble (hW : Movable W) {d : Dialect} {env : Env} (hc : CustomKeeps d env SameMac) {sources : Option Str → Str → Prop}
    (hs : ∀ file code stmts, sources file code → tokenize code = .ok stmts → ∀ st ∈ stmts, W file st.line st.tokens)
    (hinc : ∀ name code, env.text name = some code → sources (some name) code) : ∀ n file code, sources file code → Safe W (assembleR d env n file code)
  | 0, _, _, _ => .raise _
  | n + 1, file, code, hsrc => by
    unfold assembleR
    cases ht : tokenize code with
    | error e => exact .raise e
    | ok stmts =>
      dsimp only
      refine .seq (.each fun st hst => ?_) (.seq (.of (keeps_finalFill macData d) fun e q h => by cases h) (.of mac_closeSection fun e q h => by cases h))
      have hw := hs _ _ _ hsrc ht st hst
      unfold execStmtR
      split
      · exact safe_execInstr hW d n hw
      · exact safe_execDirective hW hc _ (fun name c h => safe_assemble hW hc hs hinc n _ _ (hinc _ _ h)) hw
      · exact .of (mac_execLabel d _) fun e q h => by rw [labelPlace_some h]; exact hw

end

end Necro
