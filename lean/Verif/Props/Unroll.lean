import Verif.Spec.Unroll
import Verif.Props.Hushed
import Verif.Props.Library
import Verif.Props.Abbreviate
import Verif.Props.Invariants
import Verif.Props.Data
import Verif.Props.Regions
import Verif.Lemmas.FrameTools
/-!
# A repeat block is the lines written several times (C100)
-/

namespace Necro
open Spec
open M (throw get modify lift forEach times)

theorem elsewhere_refl (s : St) : Elsewhere s s := rfl

theorem elsewhere_advanced {s t : St} (h : Elsewhere s t) (B : Bytes) : Elsewhere s (advanced B t) := by
  unfold Elsewhere at *
  rw [h]
  rfl

theorem advanced_append (A B : Bytes) (s : St) : advanced B (advanced A s) = advanced (A ++ B) s := by
  unfold advanced
  simp only [List.append_assoc, List.length_append, Int.natCast_add, St.mk.injEq, and_true, true_and]
  omega

theorem advanced_nil (s : St) : advanced [] s = s := by
  unfold advanced
  simp

theorem steady_row {run : Stmt → M Unit} {s : St} {give : Stmt → Bytes} {l : List Stmt} (h : ∀ st ∈ l, Steady run s st (give st)) :
    ∀ t, Elsewhere s t → forEach l run t = (.ok (), advanced (l.flatMap give) t) := by
  induction l with
  | nil => intro t _; rw [forEach_nil, List.flatMap_nil, advanced_nil]
  | cons st l ih =>
    intro t ht
    rw [forEach_cons, h st (by simp) t ht]
    dsimp only
    rw [ih (fun x hx => h x (by simp [hx])) _ (elsewhere_advanced ht _), advanced_append, List.flatMap_cons]

theorem steady_copies {run : Stmt → M Unit} {s : St} {give : Stmt → Bytes} {l : List Stmt} (h : ∀ st ∈ l, Steady run s st (give st)) (k : Nat) (t : St)
    (ht : Elsewhere s t) : forEach (copies k l) run t = (.ok (), advanced (copies k (l.flatMap give)) t) := by
  have h' : ∀ st ∈ copies k l, Steady run s st (give st) := by
    intro st hst
    unfold copies at hst
    rw [List.mem_flatten] at hst
    obtain ⟨l', h1, h2⟩ := hst
    rw [List.eq_of_mem_replicate h1] at h2
    exact h st h2
  rw [steady_row h' t ht]
  congr 2
  unfold copies
  clear h h' ht
  induction k with
  | zero => rfl
  | succ k ih => rw [List.replicate_succ, List.flatten_cons, List.flatMap_append, ih, List.replicate_succ, List.flatten_cons]

theorem times_copies (B : Bytes) : ∀ (k : Nat) (s : St), times k (appendBytes B) s = (.ok (), advanced (copies k B) s)
  | 0, s => by
    show ((.ok (), s) : Except Err Unit × St) = _
    rw [show copies 0 B = [] from rfl, advanced_nil]
  | k + 1, s => by
    show times k (appendBytes B) (advanced B s) = _
    rw [times_copies B k, advanced_append]
    rfl

variable {d : Dialect} {env : Env} {rec : Str → M Unit} {depth : Nat}

/-- A repeat block around such lines leaves the very state the lines written `k` times leave. -/
theorem block_copies (h1 : d.directives env (d.key "repeat".toList) = none) (h2 : d.directives env (d.key "endrepeat".toList) = none)
    {t t' a : Str} {l l' : Nat} (ht : IsDirectiveToken d t "repeat") (ht' : IsDirectiveToken d t' "endrepeat") (args' : List Str) {body : List Stmt}
    {s : St} {give : Stmt → Bytes} (hrep : s.rep = none) {k : Nat} (hk : 1 ≤ k)
    (ha : parseInteger d.sy s.labels (subToken s.defines a) 64 false = .ok (some (k : Int)))
    (hb : ∀ st ∈ body, Steady (execStmt d env depth rec) s st (give st)) :
    forEach (⟨.directive, [t, a], l⟩ :: body ++ [⟨.directive, t' :: args', l'⟩]) (execStmt d env depth rec) s =
      forEach (copies k body) (execStmt d env depth rec) s := by
  have hr : ("repeat", directiveRepeat d) ∈ builtinDirective d env rec := by simp [builtinDirective]
  have he : ("endrepeat", fun _ => directiveEndRepeat) ∈ builtinDirective d env rec := by simp [builtinDirective]
  rw [steady_copies hb k s (elsewhere_refl s), List.cons_append, forEach_cons]
  have e1 := exec_builtin hr h1 ht [a] s
  rw [show execStmt d env depth rec ⟨.directive, [t, a], l⟩ s = execDirective d env rec [t, a] s from rfl, e1]
  have esub : substituteWithDict [a] s.defines 0 = [subToken s.defines a] := by simp [substituteWithDict]
  rw [esub]
  have e2 : directiveRepeat d (t :: [subToken s.defines a]) s = (.ok (), { s with rep := some ((k : Int), s.bytes.length) }) := by
    unfold directiveRepeat
    rw [bind_eq, get_eq]
    dsimp only
    rw [hrep]
    dsimp only
    rw [bind_eq, show exactlyTwo [t, subToken s.defines a] s = (.ok (subToken s.defines a), s) from rfl]
    dsimp only
    unfold parseArg
    rw [bind_eq, bind_eq, show parseIntegerM d (subToken s.defines a) 64 false s = (.ok (some (k : Int)), s) from by
      unfold parseIntegerM; rw [ha]]
    dsimp only
    rw [show (pure (k : Int) : M Int) s = (.ok (k : Int), s) from rfl]
    dsimp only
    rw [if_neg (by omega)]
    rfl
  rw [show ("repeat", directiveRepeat d).snd [t, subToken s.defines a] s = _ from e2]
  dsimp only
  have ee : Elsewhere s { s with rep := some ((k : Int), s.bytes.length) } := rfl
  rw [forEach_append, steady_row hb _ ee]
  dsimp only
  rw [forEach_cons]
  have e3 := exec_builtin he h2 ht' args' (advanced (body.flatMap give) { s with rep := some ((k : Int), s.bytes.length) })
  rw [show execStmt d env depth rec ⟨.directive, t' :: args', l'⟩ _ = execDirective d env rec (t' :: args') _ from rfl, e3]
  have e4 : directiveEndRepeat (advanced (body.flatMap give) { s with rep := some ((k : Int), s.bytes.length) }) = (.ok (), advanced (copies k (body.flatMap give)) s) := by
    unfold directiveEndRepeat
    rw [bind_eq, get_eq]
    dsimp only
    rw [show (advanced (body.flatMap give) { s with rep := some ((k : Int), s.bytes.length) }).rep = some ((k : Int), s.bytes.length) from rfl]
    dsimp only
    rw [bind_eq, modify_eq]
    dsimp only
    rw [show (advanced (body.flatMap give) { s with rep := some ((k : Int), s.bytes.length) }).bytes.drop s.bytes.length = body.flatMap give from by
      unfold advanced; simp]
    rw [times_copies]
    have : ({ advanced (body.flatMap give) { s with rep := some ((k : Int), s.bytes.length) } with rep := none } : St) = advanced (body.flatMap give) s := by
      unfold advanced; rw [← hrep]
    rw [this, advanced_append]
    obtain ⟨j, rfl⟩ : ∃ j, k = j + 1 := ⟨k - 1, by omega⟩
    rw [show ((j + 1 : Nat) - 1 : Int).toNat = j from by omega]
    rfl
  rw [show ("endrepeat", fun _ => directiveEndRepeat).snd _ _ = _ from e4]
  rfl

/-! ## Lines that are steady -/

/-- How a data directive is executed in every state. -/
theorem data_exec_all {name : String} {size : Nat} (hn : (name, size) ∈ dataSizes) (hc : d.directives env (d.key name.toList) = none)
    {t : Str} (ht : IsDirectiveToken d t name) (args : List Str) :
    ∃ enc pack, GoodPack d size enc pack ∧ (∀ txt, (∃ out, enc txt = .ok out) ↔ (size = 1 → ∀ c ∈ txt, c.toNat < 128)) ∧
      ∀ s, execDirective d env rec (t :: args) s = forEach (substituteWithDict args s.defines 0) (dataItem d size enc pack) s := by
  have one : ∀ m, (m, directiveDb d) ∈ builtinDirective d env rec → IsDirectiveToken d t m → d.directives env (d.key m.toList) = none → size = 1 →
      ∃ enc pack, GoodPack d size enc pack ∧ (∀ txt, (∃ out, enc txt = .ok out) ↔ (size = 1 → ∀ c ∈ txt, c.toNat < 128)) ∧
      ∀ s, execDirective d env rec (t :: args) s = forEach (substituteWithDict args s.defines 0) (dataItem d size enc pack) s := by
    rintro m hb ht hc rfl
    exact ⟨_, _, goodPack_db d, fun txt => by simp [encodeAscii_iff], fun s => by rw [exec_builtin hb hc ht]; rfl⟩
  have two : ∀ m, (m, directiveDw d) ∈ builtinDirective d env rec → IsDirectiveToken d t m → d.directives env (d.key m.toList) = none → size = 2 →
      ∃ enc pack, GoodPack d size enc pack ∧ (∀ txt, (∃ out, enc txt = .ok out) ↔ (size = 1 → ∀ c ∈ txt, c.toNat < 128)) ∧
      ∀ s, execDirective d env rec (t :: args) s = forEach (substituteWithDict args s.defines 0) (dataItem d size enc pack) s := by
    rintro m hb ht hc rfl
    exact ⟨_, _, goodPack_dw d, fun txt => by simp, fun s => by rw [exec_builtin hb hc ht]; rfl⟩
  have four : ∀ m, (m, directiveDd d) ∈ builtinDirective d env rec → IsDirectiveToken d t m → d.directives env (d.key m.toList) = none → size = 4 →
      ∃ enc pack, GoodPack d size enc pack ∧ (∀ txt, (∃ out, enc txt = .ok out) ↔ (size = 1 → ∀ c ∈ txt, c.toNat < 128)) ∧
      ∀ s, execDirective d env rec (t :: args) s = forEach (substituteWithDict args s.defines 0) (dataItem d size enc pack) s := by
    rintro m hb ht hc rfl
    exact ⟨_, _, goodPack_dd d, fun txt => by simp, fun s => by rw [exec_builtin hb hc ht]; rfl⟩
  simp only [dataSizes, List.mem_cons, Prod.mk.injEq, List.not_mem_nil, or_false] at hn
  rcases hn with ⟨rfl, rfl⟩ | ⟨rfl, rfl⟩ | ⟨rfl, rfl⟩ | ⟨rfl, rfl⟩ | ⟨rfl, rfl⟩ | ⟨rfl, rfl⟩ | ⟨rfl, rfl⟩
  · exact one _ (by simp [builtinDirective]) ht hc rfl
  · exact one _ (by simp [builtinDirective]) ht hc rfl
  · exact two _ (by simp [builtinDirective]) ht hc rfl
  · exact two _ (by simp [builtinDirective]) ht hc rfl
  · exact four _ (by simp [builtinDirective]) ht hc rfl
  · exact four _ (by simp [builtinDirective]) ht hc rfl
  · exact four _ (by simp [builtinDirective]) ht hc rfl

theorem steady_item {size : Nat} {enc : Str → Except Err Bytes} {pack : Int → Except Err Bytes} (g : GoodPack d size enc pack)
    (hte : ∀ txt, (∃ out, enc txt = .ok out) ↔ (size = 1 → ∀ c ∈ txt, c.toNat < 128)) {s : St} {a : Str} (h0 : a ≠ [])
    (hq : Quoted a → size = 1 → ∀ c ∈ (a.drop 1).dropLast, c.toNat < 128)
    (hn : ¬ Quoted a → ∃ v, parseInteger d.sy s.labels a (8 * size) false = .ok (some v)) :
    ∃ B, ∀ t, Elsewhere s t → dataItem d size enc pack a t = (.ok (), advanced B t) := by
  cases a with
  | nil => exact absurd rfl h0
  | cons c r =>
    have hf : ∀ t, firstChar (c :: r) t = (.ok c, t) := fun _ => rfl
    cases hc : isQuote c with
    | true =>
      obtain ⟨out, ho⟩ := (hte (unquote (c :: r))).2 (hq ((quoted_iff c r).2 hc))
      refine ⟨out, fun t _ => ?_⟩
      unfold dataItem
      rw [bind_eq, hf]
      dsimp only
      rw [hc, if_pos rfl, bind_eq, lift_eq, ho]
      rfl
    | false =>
      have hnq : ¬ Quoted (c :: r) := by rw [quoted_iff, hc]; simp
      obtain ⟨v, hv⟩ := hn hnq
      have hb := C13_unsigned _ _ _ _ _ g.pos hv
      obtain ⟨out, h1, _, _⟩ := g.num v hb.1 hb.2
      refine ⟨out, fun t ht => ?_⟩
      have el : t.labels = s.labels := by rw [ht]
      unfold dataItem
      rw [bind_eq, hf]
      dsimp only
      rw [hc, if_neg (by simp), bind_eq]
      have e : parseIntegerOrLabelM d { label := c :: r, size := size, bitsSize := 8 * size } false t = (.ok v, t) := by
        have hv' : parseInteger d.sy t.labels (c :: r) (8 * size) (false || (0 : Int) != 0) = .ok (some v) := by rw [el]; exact hv
        unfold parseIntegerOrLabelM
        dsimp only
        rw [show ((false || ({ label := c :: r, size := size, bitsSize := 8 * size } : Reloc).relative != 0)) = false from rfl]
        rw [show parseInteger d.sy t.labels (c :: r) (8 * size) false = .ok (some v) from hv']
      rw [e]
      dsimp only
      rw [bind_eq, lift_eq, h1]
      rfl

theorem steady_items {m : Str → M Unit} {s : St} {args : List Str} (h : ∀ a ∈ args, ∃ B, ∀ t, Elsewhere s t → m a t = (.ok (), advanced B t)) :
    ∃ B, ∀ t, Elsewhere s t → forEach args m t = (.ok (), advanced B t) := by
  induction args with
  | nil => exact ⟨[], fun t _ => by rw [forEach_nil, advanced_nil]⟩
  | cons a args ih =>
    obtain ⟨A, hA⟩ := h a (by simp)
    obtain ⟨B, hB⟩ := ih fun x hx => h x (by simp [hx])
    refine ⟨A ++ B, fun t ht => ?_⟩
    rw [forEach_cons, hA t ht]
    dsimp only
    rw [hB _ (elsewhere_advanced ht _), advanced_append]

/-- C100: a data directive whose arguments are texts and numbers, and not labels, gives the same bytes wherever it stands. -/
theorem C100_data {name : String} {size : Nat} (hn : (name, size) ∈ dataSizes) (hc : d.directives env (d.key name.toList) = none)
    {t : Str} (ht : IsDirectiveToken d t name) {args : List Str} {line : Nat} {s : St}
    (h0 : ∀ a ∈ args.map (subToken s.defines), a ≠ [])
    (hq : ∀ a ∈ args.map (subToken s.defines), Quoted a → size = 1 → ∀ c ∈ (a.drop 1).dropLast, c.toNat < 128)
    (hv : ∀ a ∈ args.map (subToken s.defines), ¬ Quoted a → ∃ v, parseInteger d.sy s.labels a (8 * size) false = .ok (some v)) :
    ∃ B, Steady (execStmt d env depth rec) s ⟨.directive, t :: args, line⟩ B := by
  obtain ⟨enc, pack, g, hte, he⟩ := data_exec_all (rec := rec) hn hc ht args
  obtain ⟨B, hB⟩ := steady_items (m := dataItem d size enc pack) (s := s) fun a ha => steady_item g hte (h0 a ha) (hq a ha) (hv a ha)
  refine ⟨B, fun u hu => ?_⟩
  rw [show execStmt d env depth rec ⟨.directive, t :: args, line⟩ u = execDirective d env rec (t :: args) u from rfl, he]
  have ed : u.defines = s.defines := by rw [hu]
  rw [ed, show substituteWithDict args s.defines 0 = args.map (subToken s.defines) from by simp [substituteWithDict]]
  exact hB u hu

/-- C100: an instruction that is encoded without a reference, and to the same bytes at every address, gives the same bytes wherever it stands. -/
theorem C100_instruction {s : St} {ts : List Str} {t : Str} {r : List Str} {line : Nat} {B : Bytes} (hr : s.recording = none)
    (hs : ts.map (subToken s.defines) = t :: r) (hm : s.macros.lookup (d.key t) = none)
    (hi : d.instrs (d.key t) = some (.fixed B) ∧ r = [] ∨
      ∃ f, d.instrs (d.key t) = some (.handler f) ∧ ∀ pc, f (t :: r) ⟨pc, s.labels, d.sy, s.bitsMode⟩ = (.ok (some B), [])) :
    Steady (execStmt d env (depth + 1) rec) s ⟨.instr, ts, line⟩ B := by
  intro u hu
  have e1 : u.recording = none := by rw [hu]; exact hr
  have e2 : u.defines = s.defines := by rw [hu]
  have e3 : u.macros = s.macros := by rw [hu]
  have e4 : u.labels = s.labels := by rw [hu]
  have e5 : u.bitsMode = s.bitsMode := by rw [hu]
  show execInstr d (depth + 1) none ⟨.instr, ts, line⟩ u = _
  unfold execInstr
  rw [bind_eq, get_eq]
  dsimp only
  rw [e1]
  dsimp only
  rw [bind_eq, show writeBack none _ u = (.ok (), u) from rfl]
  dsimp only
  rw [e2, show substituteWithDict ts s.defines 0 = ts.map (subToken s.defines) from by simp [substituteWithDict], hs]
  dsimp only
  rw [e3, dget_eq_lookup, hm]
  dsimp only
  rcases hi with ⟨hf, rfl⟩ | ⟨f, hf, hp⟩
  · rw [hf]
    dsimp only
    rw [if_neg (by simp)]
    rfl
  · rw [hf]
    dsimp only
    rw [bind_eq]
    have : runHandler d f (t :: r) u = (.ok B, u) := by
      unfold runHandler
      rw [e4, e5, hp]
      rfl
    rw [this]
    rfl

/-! ## Programs -/

theorem tool_noRepeat (tool : Tool) (env : Env) : ∀ w ∈ ["repeat", "endrepeat"], tool.dialect.directives env (tool.dialect.key w.toList) = none := by
  have sms : ∀ base : Dialect, base.caseSensitive = false → ∀ w ∈ ["repeat", "endrepeat"], (smsOn base).directives env (base.key w.toList) = none := by
    intro base hb w hw
    refine class_none hb [("tiles", smsTiles env)] ?_
    rw [upper_key hb, show ([("tiles", smsTiles env)] : List (String × (List Str → M Unit))).map Prod.fst = ["tiles"] from rfl]
    revert w
    decide
  have gb : ∀ base : Dialect, base.caseSensitive = false → ∀ w ∈ ["repeat", "endrepeat"], (gameboyOn base).directives env (base.key w.toList) = none := by
    intro base hb w hw
    refine class_none hb (gameboyDirectives base env) ?_
    rw [upper_key hb, show (gameboyDirectives base env).map Prod.fst = ["cartridge", "cartridge_title", "cartridge_license", "cartridge_cgb", "cartridge_sgb",
      "cartridge_type", "cartridge_destination", "tiles"] from rfl]
    revert w
    decide
  have ns : ∀ w ∈ ["repeat", "endrepeat"], nes.directives env (mos6502.key w.toList) = none := by
    intro w hw
    refine class_none (d := mos6502) rfl (nesDirectives mos6502 env) ?_
    rw [upper_key rfl, show (nesDirectives mos6502 env).map Prod.fst = ["cartridge", "cartridge_prg_roms", "cartridge_chr_roms", "chr_pattern_table"] from rfl]
    revert w
    decide
  cases tool with
  | sms => exact sms _ rfl
  | gameboy => exact gb _ rfl
  | nes => exact ns
  | _ =>
    intro w hw
    simp only [List.mem_cons, List.not_mem_nil, or_false] at hw
    rcases hw with rfl | rfl <;> rfl

theorem sections_eq {a b : List (Str × Section)} (hn : (a.map Prod.fst).Nodup) (h : SameSections a b) : a = b := by
  induction a generalizing b with
  | nil =>
    cases b with
    | nil => rfl
    | cons y b => simp [SameSections] at h
  | cons x a ih =>
    cases b with
    | nil => simp [SameSections] at h
    | cons y b =>
      obtain ⟨k, x⟩ := x
      obtain ⟨k', y⟩ := y
      obtain ⟨h1, h2⟩ := h
      simp only [List.map_cons, List.cons.injEq] at h1 hn
      obtain ⟨rfl, h1⟩ := h1
      rw [List.nodup_cons] at hn
      have hk := h2 k
      rw [dget_eq_lookup, dget_eq_lookup, List.lookup_cons_self, List.lookup_cons_self] at hk
      cases hk
      rw [ih hn.2 ⟨h1, fun j => ?_⟩]
      have hj := h2 j
      rw [dget_eq_lookup, dget_eq_lookup] at hj ⊢
      by_cases e : j = k
      · subst e
        rw [List.lookup_eq_none_iff.2, List.lookup_eq_none_iff.2]
        · intro p hp; simp only [beq_iff_eq, bne_iff_ne, ne_eq]; rintro rfl
          exact hn.1 (h1 ▸ List.mem_map_of_mem hp)
        · intro p hp; simp only [beq_iff_eq, bne_iff_ne, ne_eq]; rintro rfl
          exact hn.1 (List.mem_map_of_mem hp)
      · have e' : (j == k) = false := by simpa using e
        simpa [List.lookup_cons, e'] using hj

theorem sectionNames_tool (tool : Tool) (env : Env) : CustomKeeps tool.dialect env (fun s s' => s.sections.map Prod.fst <+: s'.sections.map Prod.fst ∧
    ((s.sections.map Prod.fst).Nodup → (s'.sections.map Prod.fst).Nodup)) := by
  intro key f hf l s
  have h := (frame_tool tool env key f hf l).eq s s.macros s.sections
  have e : (f l s).2.sections = s.sections := by
    have := congrArg (fun p => p.2.sections) h
    exact this
  rw [e]
  exact ⟨List.prefix_refl _, id⟩

theorem sectionNames_sources (tool : Tool) (env : Env) (depth : Nat) (fs : List Str) {s : St} (h : (s.sections.map Prod.fst).Nodup) :
    ((sourcesM tool.dialect env depth fs s).2.sections.map Prod.fst).Nodup := by
  have hr := rel_names tool.dialect
  have hk : Keeps _ (sourcesM tool.dialect env depth fs) :=
    .forEach hr.toDataRel fun f _ => .bind hr.toDataRel (by unfold openFile; cases env.text f <;> exact fun s => hr.refl s) fun c => keeps_assemble hr env (sectionNames_tool tool env) depth c
  exact (hk s).2 h

theorem alike_of_same {s t : St} (h : SameState s t) : Alike s t := by
  refine ⟨t.macros, t.sections, ?_, h.macros, h.sections.1, fun k => .inl (h.sections.2 k)⟩
  obtain ⟨⟨h1, h2, h3, h4, h5, h6, h7, h8, h9, h10, h11, h12, h13, h14⟩, _, _⟩ := h
  cases s
  cases t
  simp only at h1 h2 h3 h4 h5 h6 h7 h8 h9 h10 h11 h12 h13 h14
  subst_vars
  rfl

/-- Further sources keep two states the same up to the line numbers in macro bodies. -/
theorem same_sources (tool : Tool) (env : Env) (depth : Nat) (fs : List Str) : ∀ {s t : St}, SameState s t →
    (sourcesM tool.dialect env depth fs s).1 = (sourcesM tool.dialect env depth fs t).1 ∧
      ((sourcesM tool.dialect env depth fs s).1 = .ok () → SameState (sourcesM tool.dialect env depth fs s).2 (sourcesM tool.dialect env depth fs t).2) := by
  induction fs with
  | nil => intro s t h; exact ⟨rfl, fun _ => h⟩
  | cons f fs ih =>
    intro s t h
    have one : ∀ u, sourcesM tool.dialect env depth (f :: fs) u =
        match (openFile (env.text f) >>= fun c => assemble tool.dialect env depth c) u with
        | (.ok _, u') => sourcesM tool.dialect env depth fs u'
        | (.error e, u') => (.error e, u') := fun u => forEach_cons ..
    rw [one, one]
    cases hf : env.text f with
    | none => exact ⟨rfl, fun e => by cases e⟩
    | some c =>
      have op : ∀ u, (openFile (some c) >>= fun c => assemble tool.dialect env depth c) u = assemble tool.dialect env depth c u := fun _ => rfl
      rw [op, op]
      have hfile : (assemble tool.dialect env depth c s).1 = (assemble tool.dialect env depth c t).1 ∧
          ((assemble tool.dialect env depth c s).1 = .ok () → SameState (assemble tool.dialect env depth c s).2 (assemble tool.dialect env depth c t).2) := by
        cases depth with
        | zero => exact ⟨rfl, fun e => by cases e⟩
        | succ n =>
          have hu : ∀ u, assemble tool.dialect env (n + 1) c u = match tokenize c with
              | .ok l => execStmts tool.dialect env n (assemble tool.dialect env n) l u
              | .error e => (.error e, u) := by
            intro u
            rw [assemble, bind_eq, lift_eq]
            cases tokenize c <;> rfl
          rw [hu, hu]
          cases tokenize c with
          | error e => exact ⟨rfl, fun e => by cases e⟩
          | ok l =>
            have := execStmts_same (resp_tool tool env) (resp_assemble (resp_tool tool env) n) (depth := n) (l := l) rfl (alike_of_same h)
            exact ⟨this.1, this.2.2⟩
      rcases ha : assemble tool.dialect env depth c s with ⟨r, s'⟩
      rcases hb : assemble tool.dialect env depth c t with ⟨r', t'⟩
      rw [ha, hb] at hfile
      obtain ⟨e1, e2⟩ := hfile
      dsimp only at e1 e2
      subst e1
      cases r with
      | error e => exact ⟨rfl, fun e => by cases e⟩
      | ok _ => exact ih (e2 rfl)

/-- The two programs of C100 are assembled alike. -/
theorem twins_unrolled (tool : Tool) {n : Nat} {before after : List Str} {file file' : Str} (h : Unrolled tool.dialect env (n + 1) before file file') :
    Twins tool.dialect env (n + 2) (before ++ file :: after) (before ++ file' :: after) := by
  obtain ⟨code, code', pre, body, post, copied, t, t', a, l, l', args', give, k, s0, s1, hf, hf', h, h', hcopy, ht, ht', h0, h1, hrep, hk, ha, hb⟩ := h
  have hc := resp_tool tool env
  have hr : ∀ c, Resp (assemble tool.dialect env (n + 1) c) (assemble tool.dialect env (n + 1) c) := resp_assemble hc (n + 1)
  have e : forEach (pre ++ (⟨.directive, [t, a], l⟩ :: body ++ [⟨.directive, t' :: args', l'⟩]) ++ post) (execStmt tool.dialect env (n + 1) (assemble tool.dialect env (n + 1))) s0 =
      forEach (pre ++ copies k body ++ post) (execStmt tool.dialect env (n + 1) (assemble tool.dialect env (n + 1))) s0 := by
    have hblk := block_copies (l := l) (l' := l') (tool_noRepeat tool env _ (by simp)) (tool_noRepeat tool env _ (by simp)) ht ht' args' hrep hk ha hb
    revert hblk
    generalize (⟨.directive, [t, a], l⟩ :: body ++ [⟨.directive, t' :: args', l'⟩] : List Stmt) = block
    intro hblk
    simp only [forEach_append, h1, hblk]
  have same : execStmts tool.dialect env (n + 1) (assemble tool.dialect env (n + 1)) (pre ++ (⟨.directive, [t, a], l⟩ :: body ++ [⟨.directive, t' :: args', l'⟩]) ++ post) s0 =
      execStmts tool.dialect env (n + 1) (assemble tool.dialect env (n + 1)) (pre ++ copies k body ++ post) s0 := by
    unfold execStmts
    rw [bind_eq, bind_eq, e]
  have split : ∀ {f c : Str} {st : List Stmt}, env.text f = some c → tokenize c = .ok st → sourcesM tool.dialect env (n + 2) (before ++ f :: after) tool.dialect.init =
      match execStmts tool.dialect env (n + 1) (assemble tool.dialect env (n + 1)) st s0 with
      | (.ok _, s) => sourcesM tool.dialect env (n + 2) after s
      | (.error e, s) => (.error e, s) := by
    intro f c st g1 g2
    unfold sourcesM at h0 ⊢
    rw [forEach_append, h0]
    dsimp only
    rw [forEach_cons, bind_eq, g1, show openFile (some c) s0 = (.ok c, s0) from rfl]
    dsimp only
    rw [assemble, bind_eq, lift_eq, g2]
    dsimp only
    rcases execStmts tool.dialect env (n + 1) (assemble tool.dialect env (n + 1)) st s0 with ⟨_ | _, s⟩ <;> rfl
  have hres := execStmts_same hc hr (depth := n + 1) hcopy.symm (.refl s0)
  have e1 := split hf h
  have e2 := split hf' h'
  rw [same] at e1
  rcases hx : execStmts tool.dialect env (n + 1) (assemble tool.dialect env (n + 1)) (pre ++ copies k body ++ post) s0 with ⟨r, u⟩
  rcases hy : execStmts tool.dialect env (n + 1) (assemble tool.dialect env (n + 1)) copied s0 with ⟨r', u'⟩
  rw [hx, hy] at hres
  rw [hx] at e1
  rw [hy] at e2
  obtain ⟨rr, -, hsame⟩ := hres
  dsimp only at rr hsame
  subst rr
  cases r with
  | error e => exact ⟨_, _, _, e1, e2, fun h => by cases h⟩
  | ok _ =>
    dsimp only at e1 e2
    obtain ⟨g1, g2⟩ := same_sources tool env (n + 2) after (hsame rfl)
    refine ⟨(sourcesM tool.dialect env (n + 2) after u).1, (sourcesM tool.dialect env (n + 2) after u).2, (sourcesM tool.dialect env (n + 2) after u').2, e1, ?_, fun hok => ?_⟩
    · rw [e2, g1]
    · have hnd := sectionNames_sources tool env (n + 2) (before ++ file :: after) (s := tool.dialect.init) (by simp [Dialect.init])
      rw [e1] at hnd
      have hsec := sections_eq hnd (g2 hok).sections
      obtain ⟨x, y, e3, -⟩ := alike_of_same (g2 hok)
      have ey : y = (sourcesM tool.dialect env (n + 2) after u).2.sections := by
        rw [hsec, e3]
        rfl
      exact ⟨(sourcesM tool.dialect env (n + 2) after u).2.defines, x, by rw [e3, ey]; rfl⟩

/-- C100: a program with a repeat block around lines that give the same bytes wherever they stand, and the program with these lines
written that many times, are assembled to the same bytes, or are rejected with the same error. -/
theorem C100_unroll (tool : Tool) {n : Nat} {before : List Str} {file file' : Str} (h : Unrolled tool.dialect env (n + 1) before file file') (after : List Str) :
    build tool.dialect env (n + 2) (before ++ file :: after) = build tool.dialect env (n + 2) (before ++ file' :: after) :=
  twins_build tool (twins_unrolled tool h)

variable {m : Machine} {disk : Disk}

/-- C100: running a program of the package on the two, the programs that write object files included, does the same. -/
theorem C100_run (tool : Tool) (ht : tool ∉ [Tool.gba, .genesis, .psx, .nes]) {n : Nat} (hd : m.depth = n + 2) {before : List Str} {file file' : Str}
    (h : Unrolled tool.dialect (m.view disk) (n + 1) before file file') (after : List Str) (out : Str) :
    tool.run m (before ++ file :: after ++ [out]) disk = tool.run m (before ++ file' :: after ++ [out]) disk :=
  twins_run tool ht (hd ▸ twins_unrolled tool h) out

/-- C100: the programs that take one source; `args` are the output and what else is given. -/
theorem C100_file_run (tool : Tool) (ht : tool ∈ [Tool.gba, .genesis, .psx, .nes]) {n : Nat} (hd : m.depth = n + 2) {file file' : Str}
    (h : Unrolled tool.dialect (m.view disk) (n + 1) [] file file') (args : List Str) :
    tool.run m (file :: args) disk = tool.run m (file' :: args) disk :=
  twins_file tool ht (hd ▸ twins_unrolled (before := []) (after := []) tool h) args

/-! ## Cases -/

/-- A table of the same lines three times; the count is a definition of another source. -/
def repeatFiles : Env :=
  { text := fun n =>
      if n = "a.s".toList then some ".define count 3\n".toList
      else if n = "b.s".toList then some "start:\n.repeat count\ninx\n.db 1, 2, \"ab\"\n.endrepeat\njmp start\n".toList
      else some "start:\ninx\n.db 1, 2, \"ab\"\ninx\n.db 1, 2, \"ab\"\ninx\n.db 1, 2, \"ab\"\njmp start\n".toList }

def repeatBody : List Stmt := [⟨.instr, ["inx".toList], 3⟩, ⟨.directive, [".db".toList, "1".toList, "2".toList, "\"ab\"".toList], 4⟩]
def repeatCopied : List Stmt :=
  [⟨.label, ["start".toList], 1⟩, ⟨.instr, ["inx".toList], 2⟩, ⟨.directive, [".db".toList, "1".toList, "2".toList, "\"ab\"".toList], 3⟩,
   ⟨.instr, ["inx".toList], 4⟩, ⟨.directive, [".db".toList, "1".toList, "2".toList, "\"ab\"".toList], 5⟩,
   ⟨.instr, ["inx".toList], 6⟩, ⟨.directive, [".db".toList, "1".toList, "2".toList, "\"ab\"".toList], 7⟩, ⟨.instr, ["jmp".toList, "start".toList], 8⟩]
def repeatStart : St := (sourcesM mos6502 repeatFiles 3 ["a.s".toList] mos6502.init).2
def repeatMiddle : St := (forEach [⟨.label, ["start".toList], 1⟩] (execStmt mos6502 repeatFiles 2 (assemble mos6502 repeatFiles 2)) repeatStart).2

theorem repeat_inx : Steady (execStmt mos6502 repeatFiles 2 (assemble mos6502 repeatFiles 2)) repeatMiddle ⟨.instr, ["inx".toList], 3⟩ [0xE8#8] :=
  C100_instruction (t := "inx".toList) (r := []) (by decide +kernel) (by decide +kernel) (by decide +kernel) (.inl ⟨by rfl, rfl⟩)

theorem repeat_db : ∃ B, Steady (execStmt mos6502 repeatFiles 2 (assemble mos6502 repeatFiles 2)) repeatMiddle
    ⟨.directive, [".db".toList, "1".toList, "2".toList, "\"ab\"".toList], 4⟩ B := by
  have e : ["1".toList, "2".toList, "\"ab\"".toList].map (subToken repeatMiddle.defines) = ["1".toList, "2".toList, "\"ab\"".toList] := by decide +kernel
  refine C100_data (name := "db") (size := 1) (by simp [dataSizes]) rfl (by unfold IsDirectiveToken; decide +kernel) ?_ ?_ ?_ <;> rw [e]
  · decide
  · unfold Quoted; decide +kernel
  · intro a ha hq
    simp only [List.mem_cons, List.not_mem_nil, or_false] at ha
    rcases ha with rfl | rfl | rfl
    · exact ⟨1, by decide +kernel⟩
    · exact ⟨2, by decide +kernel⟩
    · exact absurd (.inl rfl) hq

theorem repeat_unrolled : Unrolled mos6502 repeatFiles 2 ["a.s".toList] "b.s".toList "c.s".toList := by
  obtain ⟨B, hB⟩ := repeat_db
  refine ⟨_, _, [⟨.label, ["start".toList], 1⟩], repeatBody, [⟨.instr, ["jmp".toList, "start".toList], 6⟩], _, ".repeat".toList, ".endrepeat".toList, "count".toList, 2, 5, [],
    fun st => if st.kind = .instr then [0xE8#8] else B, 3, repeatStart, repeatMiddle, rfl, rfl, by decide +kernel, show _ = Except.ok repeatCopied by decide +kernel, ?_, by unfold IsDirectiveToken; decide +kernel, by unfold IsDirectiveToken; decide +kernel,
    ran (by decide +kernel), ran (by decide +kernel), by decide +kernel, by decide, by decide +kernel, ?_⟩
  · decide +kernel
  · intro st hst
    simp only [repeatBody, List.mem_cons, List.not_mem_nil, or_false] at hst
    rcases hst with rfl | rfl
    · exact repeat_inx
    · exact hB

example : build mos6502 repeatFiles 3 ["a.s".toList, "b.s".toList] = build mos6502 repeatFiles 3 ["a.s".toList, "c.s".toList] :=
  C100_unroll .mos6502 (n := 1) repeat_unrolled []

example : build mos6502 repeatFiles 3 ["a.s".toList, "b.s".toList] =
    .ok [0xE8#8, 1#8, 2#8, 0x61#8, 0x62#8, 0xE8#8, 1#8, 2#8, 0x61#8, 0x62#8, 0xE8#8, 1#8, 2#8, 0x61#8, 0x62#8, 0x4C#8, 0#8, 0#8] := by decide +kernel

/-- C100 does not hold without the condition: a label in a repeat block is put in only the first time, and zeros are left in the
copies. -/
def labelFiles : Env :=
  { text := fun n =>
      if n = "a.s".toList then some "inx\nmain:\n.repeat 2\n.dw main\n.endrepeat\n".toList
      else some "inx\nmain:\n.dw main\n.dw main\n".toList }

theorem C100_labels : build mos6502 labelFiles 3 ["a.s".toList] = .ok [0xE8#8, 1#8, 0#8, 0#8, 0#8] ∧
    build mos6502 labelFiles 3 ["b.s".toList] = .ok [0xE8#8, 1#8, 0#8, 1#8, 0#8] := by
  constructor <;> decide +kernel

end Necro
