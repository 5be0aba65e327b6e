import Verif.Spec.Restate
import Verif.Props.CaseProgram
import Verif.Props.Unroll
/-!
# C103: the same data in other numbers and texts
-/

namespace Necro

open Spec
open M (throw get modify lift forEach times)

variable {env : Env} {depth : Nat} {rec : Str → M Unit}

theorem utf16_unique {s : Str} {a b : Bytes} (h : Utf16 s a) : Utf16 s b → a = b := by
  induction h generalizing b with
  | nil => intro h; cases h; rfl
  | unit c x y s out e _ ih =>
    intro h
    cases h with
    | unit _ x' y' _ out' e' h' =>
      have := ofLE_inj [x, y] [x', y'] rfl (e.trans e'.symm)
      cases this
      rw [ih h']
    | pair _ x' y' u' v' _ out' _ _ _ _ e' _ =>
      exfalso
      simp only [ofLE] at e
      have h1 := x.isLt
      have h2 := y.isLt
      omega
  | pair c x y u v s out l1 u1 l2 u2 e _ ih =>
    intro h
    cases h with
    | unit _ x' y' _ out' e' h' =>
      exfalso
      simp only [ofLE] at e'
      have h1 := x'.isLt
      have h2 := y'.isLt
      omega
    | pair _ x' y' u' v' _ out' l1' u1' l2' u2' e' h' =>
      have e1 := ofLE_inj [x, y] [x', y'] rfl (by omega)
      have e2 := ofLE_inj [u, v] [u', v'] rfl (by omega)
      cases e1
      cases e2
      rw [ih h']

theorem utf32_unique {s : Str} {a b : Bytes} (h : Utf32 s a) : Utf32 s b → a = b := by
  induction h generalizing b with
  | nil => intro h; cases h; rfl
  | unit c x y u v s out e _ ih =>
    intro h
    cases h with
    | unit _ x' y' u' v' _ out' e' h' =>
      have := ofLE_inj [x, y, u, v] [x', y', u', v'] rfl (e.trans e'.symm)
      cases this
      rw [ih h']

theorem textBytes_unique {size : Nat} {s : Str} {a b : Bytes} (h : TextBytes size s a) (h' : TextBytes size s b) : a = b := by
  unfold TextBytes at h h'
  split at h
  · have e := h.2.trans h'.2.symm
    exact (List.map_inj_right fun x y e => BitVec.eq_of_toNat_eq e).1 e
  · obtain ⟨r, rfl, h⟩ := h
    obtain ⟨r', rfl, h'⟩ := h'
    rw [utf16_unique h h']
  · obtain ⟨r, rfl, h⟩ := h
    obtain ⟨r', rfl, h'⟩ := h'
    rw [utf32_unique h h']
  · exact h.elim

/-- A text or a number adds its bytes to the output, and does nothing else. -/
theorem item_exact {d : Dialect} {size : Nat} {enc : Str → Except Err Bytes} {pack : Int → Except Err Bytes} (g : GoodPack d size enc pack)
    (hte : ∀ txt, (∃ out, enc txt = .ok out) ↔ (size = 1 → ∀ c ∈ txt, c.toNat < 128)) {x : Str} {out : Bytes} {s : St}
    (h : DataItem size d.bigEndian (fun t => parseInteger d.sy s.labels t (8 * size) false) x out false) : dataItem d size enc pack x s = (.ok (), advanced out s) := by
  cases x with
  | nil => cases h with
    | text _ hq => simp [Quoted] at hq
    | num _ v h0 => exact absurd rfl h0
  | cons c r =>
    have hf : firstChar (c :: r) s = (.ok c, s) := rfl
    cases h with
    | text _ hq ht =>
      have hc := (quoted_iff c r).1 hq
      obtain ⟨out', ho⟩ := (hte (unquote (c :: r))).2 (by rintro rfl; exact ht.1)
      have := textBytes_unique (g.text _ _ ho) ht
      subst this
      unfold dataItem
      rw [bind_eq, hf]
      dsimp only
      rw [hc, if_pos rfl, bind_eq, lift_eq, ho]
      rfl
    | num _ v h0 hq hv hl he =>
      have hc : isQuote c = false := by
        cases hc : isQuote c
        · rfl
        · exact absurd ((quoted_iff c r).2 hc) hq
      have hb := C13_unsigned _ _ _ _ _ g.pos hv
      obtain ⟨out', h1, h2, h3⟩ := g.num v hb.1 hb.2
      have := ofBytes_inj d.bigEndian out' out (h2.trans hl.symm) (by omega)
      subst this
      unfold dataItem
      rw [bind_eq, hf]
      dsimp only
      rw [hc, if_neg (by simp), bind_eq]
      have e : parseIntegerOrLabelM d { label := c :: r, size := size, bitsSize := 8 * size } false s = (.ok v, s) := by
        unfold parseIntegerOrLabelM
        dsimp only
        rw [show ((false || ({ label := c :: r, size := size, bitsSize := 8 * size } : Reloc).relative != 0)) = false from rfl]
        rw [show parseInteger d.sy s.labels (c :: r) (8 * size) false = .ok (some v) from hv]
      rw [e]
      dsimp only
      rw [bind_eq, lift_eq, h1]
      rfl

theorem items_exact {d : Dialect} {size : Nat} {enc : Str → Except Err Bytes} {pack : Int → Except Err Bytes} (g : GoodPack d size enc pack)
    (hte : ∀ txt, (∃ out, enc txt = .ok out) ↔ (size = 1 → ∀ c ∈ txt, c.toNat < 128)) {xs : List Str} {B : Bytes} (h : ItemsFor d size xs B) :
    ∀ s, forEach xs (dataItem d size enc pack) s = (.ok (), advanced B s) := by
  induction h with
  | nil => intro s; rw [forEach_nil, advanced_nil]
  | cons hx _ ih =>
    intro s
    rw [forEach_cons, item_exact g hte (hx s.labels)]
    dsimp only
    rw [ih, advanced_append]

/-- Lines of data add the bytes they stand for. -/
theorem lines_exact {d : Dialect} (hd : PlainData d env) {a : List (Str × Str)} {ps : List DataLine} {B : Bytes} (h : LinesFor d a ps B) :
    ∀ {l : List Stmt}, l.map content = ps.map (fun p => (.directive, p.token :: p.items)) → ∀ s, Tracks a s.defines → forEach l (execStmt d env depth rec) s = (.ok (), advanced B s) := by
  induction h with
  | nil =>
    intro l hl s _
    cases List.map_eq_nil_iff.1 hl
    rw [forEach_nil, advanced_nil]
  | @cons p ps A B size hp hi _ ih =>
    intro l hl s hs
    obtain ⟨⟨kind, tokens, line⟩, l, rfl, hx, hl'⟩ := List.map_eq_cons_iff.1 hl
    cases hx
    obtain ⟨name, hn, ht⟩ := hp
    obtain ⟨enc, pack, g, hte, he⟩ := data_exec_all (rec := rec) hn (hd _ hn) ht p.items
    rw [forEach_cons, show execStmt d env depth rec ⟨.directive, p.token :: p.items, line⟩ s = execDirective d env rec (p.token :: p.items) s from rfl, he, tracks_tokens hs, items_exact g hte hi]
    dsimp only
    rw [ih hl' (advanced A s) hs, advanced_append]

theorem alike_advanced {s t : St} (h : Alike s t) (B : Bytes) : Alike (advanced B s) (advanced B t) := by
  obtain ⟨a, b, rfl, h1, h2⟩ := h
  exact ⟨a, b, rfl, h1, h2⟩

theorem restated_lines (tool : Tool) (hr : ∀ c, Resp (rec c) (rec c)) {k k' : Known} {l : List Stmt} {c : List (Kind × List Str)} (h : RestatedLines tool.dialect k l c k') :
    ∀ {l' : List Stmt}, l'.map content = c → ∀ s t, Alike s t → HoldsIn k s →
      Beside (forEach l (execStmt tool.dialect env depth rec)) (forEach l' (execStmt tool.dialect env depth rec)) k' s t := by
  have glue : ∀ {l1 l2 l1' l2' : List Stmt} {k1 k2 : Known} {s t : St}, Beside (forEach l1 (execStmt tool.dialect env depth rec)) (forEach l1' (execStmt tool.dialect env depth rec)) k1 s t →
      (∀ s t, Alike s t → HoldsIn k1 s → Beside (forEach l2 (execStmt tool.dialect env depth rec)) (forEach l2' (execStmt tool.dialect env depth rec)) k2 s t) →
      Beside (forEach (l1 ++ l2) (execStmt tool.dialect env depth rec)) (forEach (l1' ++ l2') (execStmt tool.dialect env depth rec)) k2 s t := by
    intro l1 l2 l1' l2' k1 k2 s t h1 h2
    have e : ∀ (a b : List Stmt) (s : St), forEach (a ++ b) (execStmt tool.dialect env depth rec) s =
        (forEach a (execStmt tool.dialect env depth rec) >>= fun _ => forEach b (execStmt tool.dialect env depth rec)) s := by
      intro a b s
      rw [forEach_append, bind_eq]
      rcases forEach a (execStmt tool.dialect env depth rec) s with ⟨_ | _, s'⟩ <;> rfl
    have := beside_bind (f := fun _ => forEach l2 (execStmt tool.dialect env depth rec)) (f' := fun _ => forEach l2' (execStmt tool.dialect env depth rec)) h1 h2
    exact ⟨by rw [e, e]; exact this.same, by rw [e, e]; exact this.alike, by rw [e]; exact this.post⟩
  induction h with
  | nil k =>
    intro l' hl s t hst hk
    cases List.map_eq_nil_iff.1 hl
    exact ⟨rfl, hst, fun _ => hk⟩
  | kept h1 _ ih =>
    intro l' hl s t hst hk
    obtain ⟨la, lb, rfl, ha, hb⟩ := List.map_eq_append_iff.1 hl
    exact glue (beside_lines tool hr h1 ha s t hst hk) fun s t hst hk => ih hb s t hst hk
  | @data r a k' l c B ps qs h1 h2 _ ih =>
    intro l' hl s t hst hk
    obtain ⟨la, lb, rfl, ha, hb⟩ := List.map_eq_append_iff.1 hl
    have hs := (hk _ _ rfl).2
    have ht : Tracks a t.defines := by rw [(alike_tables hst).2]; exact hs
    have e1 := lines_exact (depth := depth) (rec := rec) (tool_plainData tool env) h1 (l := ps.map (fun p => ⟨.directive, p.1.token :: p.1.items, p.2⟩)) (by simp [content, Function.comp_def]) s hs
    have e2 := lines_exact (depth := depth) (rec := rec) (tool_plainData tool env) h2 ha t ht
    refine glue (k1 := some (r, a)) ⟨by rw [e1, e2], by rw [e1, e2]; exact alike_advanced hst B, fun _ => ?_⟩ fun s t hst hk => ih hb s t hst hk
    rw [e1]
    exact holds_kept hk rfl rfl

/-- Whole sources end in the same observable state. -/
theorem execStmts_restated (tool : Tool) (hr : ∀ c, Resp (rec c) (rec c)) {k k' : Known} {l l' : List Stmt} (h : RestatedLines tool.dialect k l (l'.map content) k') {s t : St} (hst : Alike s t)
    (hk : HoldsIn k s) : (execStmts tool.dialect env depth rec l s).1 = (execStmts tool.dialect env depth rec l' t).1 ∧
    ((execStmts tool.dialect env depth rec l s).1 = .ok () → SameState (execStmts tool.dialect env depth rec l s).2 (execStmts tool.dialect env depth rec l' t).2 ∧
      HoldsIn k' (execStmts tool.dialect env depth rec l s).2) := by
  obtain ⟨h1, h2, h3⟩ := restated_lines (env := env) (depth := depth) tool hr h rfl s t hst hk
  have e : ∀ (l : List Stmt) (s : St), execStmts tool.dialect env depth rec l s = match forEach l (execStmt tool.dialect env depth rec) s with
      | (.ok _, s') => execStmts tool.dialect env depth rec [] s'
      | (.error e, s') => (.error e, s') := by
    intro l s
    unfold execStmts
    rw [bind_eq]
    rcases forEach l (execStmt tool.dialect env depth rec) s with ⟨_ | _, s'⟩ <;> rfl
  rw [e l s, e l' t]
  rcases hs : forEach l (execStmt tool.dialect env depth rec) s with ⟨r, s1⟩
  rcases ht : forEach l' (execStmt tool.dialect env depth rec) t with ⟨r', t1⟩
  rw [hs, ht] at h1 h2
  rw [hs] at h3
  dsimp only at h1 h2 h3
  subst h1
  cases r with
  | error e => exact ⟨rfl, fun h => by cases h⟩
  | ok u =>
    dsimp only
    have g := execStmts_same_of (d := tool.dialect) (env := env) (depth := depth) (rec := rec) (l := []) (l' := []) (resp_pure ()) h2
    refine ⟨g.1, fun hok => ⟨g.2 hok, ?_⟩⟩
    have ha : Aloof (execStmts tool.dialect env depth rec []) := .bind (.pure ()) fun _ => .bind (aloof_finalFill tool.dialect) fun _ => aloof_closeSection
    have hd : Deaf (execStmts tool.dialect env depth rec []) := .bind (.pure ()) fun _ => .bind (deaf_finalFill tool.dialect) fun _ => deaf_closeSection
    exact holds_kept (h3 rfl) (hd.recording s1) (ha.fields s1).2.2.1

theorem restated_sources (tool : Tool) (depth : Nat) {k : Known} {fs fs' : List Str} (h : RestatedFiles tool.dialect env.text k fs fs') : ∀ {s t : St}, SameState s t → HoldsIn k s →
    (sourcesM tool.dialect env depth fs s).1 = (sourcesM tool.dialect env depth fs' t).1 ∧
      ((sourcesM tool.dialect env depth fs s).1 = .ok () → SameState (sourcesM tool.dialect env depth fs s).2 (sourcesM tool.dialect env depth fs' t).2) := by
  have hc := resp_tool tool env
  have step : ∀ {n : Nat} {c : Str} (u : St), assemble tool.dialect env (n + 1) c u = match tokenize c with
      | .ok l => execStmts tool.dialect env n (assemble tool.dialect env n) l u
      | .error e => (.error e, u) := by
    intro n c u
    rw [assemble, bind_eq, lift_eq]
    cases tokenize c <;> rfl
  have op : ∀ {c : Str} (u : St), (openFile (some c) >>= fun c => assemble tool.dialect env depth c) u = assemble tool.dialect env depth c u := fun _ => rfl
  have after : ∀ {f f' : Str} {gs gs' : List Str} {s t : St} {k' : Known},
      (((openFile (env.text f) >>= fun c => assemble tool.dialect env depth c) s).1 = ((openFile (env.text f') >>= fun c => assemble tool.dialect env depth c) t).1 ∧
      (((openFile (env.text f) >>= fun c => assemble tool.dialect env depth c) s).1 = .ok () →
        SameState ((openFile (env.text f) >>= fun c => assemble tool.dialect env depth c) s).2 ((openFile (env.text f') >>= fun c => assemble tool.dialect env depth c) t).2 ∧
        HoldsIn k' ((openFile (env.text f) >>= fun c => assemble tool.dialect env depth c) s).2)) →
      (∀ {s t : St}, SameState s t → HoldsIn k' s → (sourcesM tool.dialect env depth gs s).1 = (sourcesM tool.dialect env depth gs' t).1 ∧
        ((sourcesM tool.dialect env depth gs s).1 = .ok () → SameState (sourcesM tool.dialect env depth gs s).2 (sourcesM tool.dialect env depth gs' t).2)) →
      (sourcesM tool.dialect env depth (f :: gs) s).1 = (sourcesM tool.dialect env depth (f' :: gs') t).1 ∧
        ((sourcesM tool.dialect env depth (f :: gs) s).1 = .ok () → SameState (sourcesM tool.dialect env depth (f :: gs) s).2 (sourcesM tool.dialect env depth (f' :: gs') t).2) := by
    intro f f' gs gs' s t k' hfile ih
    rw [source_step, source_step]
    rcases ha : (openFile (env.text f) >>= fun c => assemble tool.dialect env depth c) s with ⟨r, s'⟩
    rcases hb : (openFile (env.text f') >>= fun c => assemble tool.dialect env depth c) t with ⟨r', t'⟩
    rw [ha, hb] at hfile
    obtain ⟨e1, e2⟩ := hfile
    dsimp only at e1 e2
    subst e1
    cases r with
    | error e => exact ⟨rfl, fun e => by cases e⟩
    | ok _ => exact ih (e2 rfl).1 (e2 rfl).2
  induction h with
  | nil => intro s t h _; exact ⟨rfl, fun _ => h⟩
  | same f _ ih =>
    intro s t h _
    refine after (k' := none) ?_ ih
    cases hf : env.text f with
    | none => exact ⟨rfl, fun e => by cases e⟩
    | some c =>
      rw [op, op]
      cases depth with
      | zero => exact ⟨rfl, fun e => by cases e⟩
      | succ n =>
        rw [step, step]
        cases tokenize c with
        | error e => exact ⟨rfl, fun e => by cases e⟩
        | ok l =>
          have := execStmts_same_of (l := l) (l' := l) (resp_stmts hc (resp_assemble hc n) n rfl) (alike_of_same h)
          exact ⟨this.1, fun hok => ⟨this.2 hok, holds_none _⟩⟩
  | file h1 h2 h3 h4 h5 _ ih =>
    intro s t h hk
    refine after ?_ ih
    rw [h1, h2, op, op]
    cases depth with
    | zero => exact ⟨rfl, fun e => by cases e⟩
    | succ n =>
      rw [step, step, h3, h4]
      exact execStmts_restated tool (resp_assemble hc n) h5 (alike_of_same h) hk

/-- **C103.**  Lines of data may be replaced by others that stand for the same bytes: the same output, or the same error. -/
theorem C103_restated (tool : Tool) (depth : Nat) {fs fs' : List Str} (h : RestatedFiles tool.dialect env.text (some (false, tool.dialect.defines)) fs fs') :
    build tool.dialect env depth fs = build tool.dialect env depth fs' :=
  twins_build tool (twins_of_same tool (restated_sources tool depth h (same_refl _) (holds_init tool)))

variable {m : Machine} {disk : Disk}

/-- **C103.**  Running a program of the package on the two, the programs that write object files included, does the same. -/
theorem C103_run (tool : Tool) (ht : tool ∉ [Tool.gba, .genesis, .psx, .nes]) {fs fs' : List Str}
    (h : RestatedFiles tool.dialect (m.view disk).text (some (false, tool.dialect.defines)) fs fs') (out : Str) : tool.run m (fs ++ [out]) disk = tool.run m (fs' ++ [out]) disk :=
  twins_run tool ht (twins_of_same tool (restated_sources tool _ h (same_refl _) (holds_init tool))) out

/-- **C103.**  The programs that take one source; `args` are the output and what else is given. -/
theorem C103_file_run (tool : Tool) (ht : tool ∈ [Tool.gba, .genesis, .psx, .nes]) {f f' : Str}
    (h : RestatedFiles tool.dialect (m.view disk).text (some (false, tool.dialect.defines)) [f] [f']) (args : List Str) : tool.run m (f :: args) disk = tool.run m (f' :: args) disk :=
  twins_file tool ht (twins_of_same tool (restated_sources tool _ h (same_refl _) (holds_init tool))) args

/-! ## Cases -/

/-- A number in any base is its bytes. -/
theorem item_literal {d : Dialect} (hd : d.sy ∈ allSyntaxes) {size base : Nat} {dec : Bool} {p : Str} (hs : 0 < size) (hp : PrefixFor d.sy base dec p) {out : Bytes} (hl : out.length = size)
    (hq : ¬ Quoted (p ++ numeral base (ofBytes d.bigEndian out))) (h0 : p ++ numeral base (ofBytes d.bigEndian out) ≠ []) (hv : ofBytes d.bigEndian out < 2 ^ (8 * size)) (labels : Labels) :
    DataItem size d.bigEndian (fun t => parseInteger d.sy labels t (8 * size) false) (p ++ numeral base (ofBytes d.bigEndian out)) out false :=
  .num _ _ _ h0 hq (C14_round_trip d.sy hd labels base dec p _ _ (by omega) hv hp).1 hl rfl

theorem item_decimal {d : Dialect} (hd : d.sy ∈ allSyntaxes) {size base : Nat} {dec : Bool} {p : Str} (hs : 0 < size) (hp : PrefixFor d.sy base dec p) {out : Bytes} (hl : out.length = size)
    (hq : ¬ Quoted (numeral 10 (ofBytes d.bigEndian out))) (h0 : numeral 10 (ofBytes d.bigEndian out) ≠ []) (hv : ofBytes d.bigEndian out < 2 ^ (8 * size)) (labels : Labels) :
    DataItem size d.bigEndian (fun t => parseInteger d.sy labels t (8 * size) false) (numeral 10 (ofBytes d.bigEndian out)) out false :=
  .num _ _ _ h0 hq (C14_round_trip d.sy hd labels base dec p _ _ (by omega) hv hp).2 hl rfl

/-- Words and texts, and bytes in other bases; the definition is put in. -/
def restateFiles : Env :=
  { text := fun n =>
      if n = "a.s".toList then some ".define v 258\nmain:\n.dw v\n.db \"AB\"\nlda main\n".toList
      else some ".define v 258\nmain:\n.db 2\n.byte $1 65 $42\nlda main\n".toList }

theorem dec6502 {size : Nat} (hs : 0 < size) {out : Bytes} (hl : out.length = size) {x : Str} (hx : numeral 10 (ofBytes mos6502.bigEndian out) = x)
    (hq : ¬ Quoted x) (h0 : x ≠ []) (hv : ofBytes mos6502.bigEndian out < 2 ^ (8 * size)) (labels : Labels) :
    DataItem size mos6502.bigEndian (fun t => parseInteger mos6502.sy labels t (8 * size) false) x out false := by
  subst hx
  exact item_decimal (d := mos6502) (by decide +kernel) hs (.hex (p := "$".toList) (by decide +kernel)) hl hq h0 hv labels

theorem hex6502 {size : Nat} (hs : 0 < size) {out : Bytes} (hl : out.length = size) {x : Str} (hx : "$".toList ++ numeral 16 (ofBytes mos6502.bigEndian out) = x)
    (hq : ¬ Quoted x) (h0 : x ≠ []) (hv : ofBytes mos6502.bigEndian out < 2 ^ (8 * size)) (labels : Labels) :
    DataItem size mos6502.bigEndian (fun t => parseInteger mos6502.sy labels t (8 * size) false) x out false := by
  subst hx
  exact item_literal (d := mos6502) (by decide +kernel) hs (.hex (p := "$".toList) (by decide +kernel)) hl hq h0 hv labels

theorem restateFiles_restated : RestatedFiles mos6502 restateFiles.text (some (false, mos6502.defines)) ["a.s".toList] ["b.s".toList] := by
  refine .file (k' := some (false, ("v".toList, "258".toList) :: mos6502.defines)) (l := [⟨.directive, [".define".toList, "v".toList, "258".toList], 1⟩, ⟨.label, ["main".toList], 2⟩,
      ⟨.directive, [".dw".toList, "v".toList], 3⟩, ⟨.directive, [".db".toList, "\"AB\"".toList], 4⟩, ⟨.instr, ["lda".toList, "main".toList], 5⟩])
    (l' := [⟨.directive, [".define".toList, "v".toList, "258".toList], 1⟩, ⟨.label, ["main".toList], 2⟩,
      ⟨.directive, [".db".toList, "2".toList], 3⟩, ⟨.directive, [".byte".toList, "$1".toList, "65".toList, "$42".toList], 4⟩, ⟨.instr, ["lda".toList, "main".toList], 5⟩])
    rfl rfl (by decide +kernel) (by decide +kernel) ?_ .nil
  refine .kept (k1 := some (false, ("v".toList, "258".toList) :: mos6502.defines)) (l := [⟨.directive, [".define".toList, "v".toList, "258".toList], 1⟩, ⟨.label, ["main".toList], 2⟩])
    (c := [(.directive, [".define".toList, "v".toList, "258".toList]), (.label, ["main".toList])]) (.define (by unfold eqNoCase; decide +kernel) (by decide +kernel) (.plain _ (by decide) (.nil _))) ?_
  refine .data (B := [2, 1, 65, 66]) [(⟨".dw".toList, ["v".toList]⟩, 3), (⟨".db".toList, ["\"AB\"".toList]⟩, 4)] [⟨".db".toList, ["2".toList]⟩, ⟨".byte".toList, ["$1".toList, "65".toList, "$42".toList]⟩] ?_ ?_
    (.kept (l := [⟨.instr, ["lda".toList, "main".toList], 5⟩]) (l' := []) (c' := []) (.plain _ (by decide) (.nil _)) (.nil _))
  · refine .cons (A := [2, 1]) (B := [65, 66]) 2 ⟨"dw", by simp [dataSizes], by unfold IsDirectiveToken; decide +kernel⟩ ?_ (.cons (A := [65, 66]) (B := []) 1 ⟨"db", by simp [dataSizes], by unfold IsDirectiveToken; decide +kernel⟩ ?_ .nil)
    · rw [show ["v".toList].map (replaced (("v".toList, "258".toList) :: mos6502.defines)) = ["258".toList] by decide +kernel]
      exact .cons (out := [2, 1]) (B := []) (dec6502 (size := 2) (out := [2, 1]) (x := "258".toList) (by decide) rfl (by decide +kernel) (by unfold Quoted; decide +kernel) (by decide) (by decide +kernel)) .nil
    · rw [show ["\"AB\"".toList].map (replaced (("v".toList, "258".toList) :: mos6502.defines)) = ["\"AB\"".toList] by decide +kernel]
      exact .cons (out := [65, 66]) (B := []) (fun _ => .text _ _ (.inl rfl) ⟨by decide +kernel, by decide +kernel⟩) .nil
  · refine .cons (A := [2]) (B := [1, 65, 66]) 1 ⟨"db", by simp [dataSizes], by unfold IsDirectiveToken; decide +kernel⟩ ?_ (.cons (A := [1, 65, 66]) (B := []) 1 ⟨"byte", by simp [dataSizes], by unfold IsDirectiveToken; decide +kernel⟩ ?_ .nil)
    · rw [show ["2".toList].map (replaced (("v".toList, "258".toList) :: mos6502.defines)) = ["2".toList] by decide +kernel]
      exact .cons (out := [2]) (B := []) (dec6502 (size := 1) (out := [2]) (x := "2".toList) (by decide) rfl (by decide +kernel) (by unfold Quoted; decide +kernel) (by decide) (by decide +kernel)) .nil
    · rw [show ["$1".toList, "65".toList, "$42".toList].map (replaced (("v".toList, "258".toList) :: mos6502.defines)) = ["$1".toList, "65".toList, "$42".toList] by decide +kernel]
      exact .cons (out := [1]) (B := [65, 66]) (hex6502 (size := 1) (out := [1]) (x := "$1".toList) (by decide) rfl (by decide +kernel) (by unfold Quoted; decide +kernel) (by decide) (by decide +kernel))
        (.cons (out := [65]) (B := [66]) (dec6502 (size := 1) (out := [65]) (x := "65".toList) (by decide) rfl (by decide +kernel) (by unfold Quoted; decide +kernel) (by decide) (by decide +kernel))
          (.cons (out := [66]) (B := []) (hex6502 (size := 1) (out := [66]) (x := "$42".toList) (by decide) rfl (by decide +kernel) (by unfold Quoted; decide +kernel) (by decide) (by decide +kernel)) .nil))

example : build mos6502 restateFiles 3 ["a.s".toList] = build mos6502 restateFiles 3 ["b.s".toList] := C103_restated .mos6502 3 restateFiles_restated

example : build mos6502 restateFiles 3 ["b.s".toList] = .ok [2, 1, 65, 66, 0xA5, 0] := by decide +kernel

end Necro
