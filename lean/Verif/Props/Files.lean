import Verif.Props.Compose
import Verif.Props.Data
import Verif.Model.Cpu.Mc68000
/-!
# C77: files included as data

`env` is the file system.  As in Props/Data, the arguments are those after `.define`
substitution, and the hypothesis on `d.directives` says that the assembler class does not
replace the built-in directive.
-/

namespace Necro
open Spec
open M (throw get modify lift forEach times)

theorem stringify_run (t : Str) (s : St) (ht : t ≠ []) : stringify t s = (.ok (fileName t), s) := by
  cases hs : stringify t s with
  | mk r s2 =>
    cases r with
    | ok n => obtain ⟨rfl, rfl⟩ := stringify_ok hs; rfl
    | error e =>
      exfalso
      cases t with
      | nil => exact ht rfl
      | cons c r =>
        have e' : stringify (c :: r) s = (if isQuote c then (Pure.pure (unquote (c :: r)) : M Str) else Pure.pure (c :: r)) s := rfl
        rw [e'] at hs
        by_cases hq : isQuote c = true
        · rw [if_pos hq] at hs; injection hs with h _; cases h
        · rw [if_neg hq] at hs; injection hs with h _; cases h

theorem stringify_nil (s : St) : stringify [] s = (.error .indexError, s) := rfl

/-- How the cells of a file are read: all of them, or the state is left alone. -/
theorem csvCells_cases (d : Dialect) (size bits : Nat) (hb : 1 ≤ bits) (enc : Int → Except Err Bytes)
    (henc : ∀ v : Int, 0 ≤ v → v < 2 ^ bits → ∃ out, enc v = .ok out ∧ out.length = size ∧ (ofLE out : Int) = v)
    (cells : List Str) (s : St) :
    (∃ items : List (Str × Bytes), items.map Prod.fst = cells ∧
      (∀ i ∈ items, CellBytes size (fun t => parseInteger d.sy s.labels t bits false) i.1 i.2) ∧
      csvCells d bits enc cells s = (.ok (items.flatMap Prod.snd), s)) ∨
    (∃ e, csvCells d bits enc cells s = (.error e, s) ∧
      ∃ c ∈ cells, ∀ v, parseInteger d.sy s.labels c bits false ≠ .ok (some v)) := by
  induction cells with
  | nil => exact .inl ⟨[], rfl, by simp, rfl⟩
  | cons c cs ih =>
    have hp0 : parseIntegerM d c bits false s = (parseInteger d.sy s.labels c bits false, s) := rfl
    unfold csvCells
    rw [bind_eq, hp0]
    cases hp : parseInteger d.sy s.labels c bits false with
    | error e => exact .inr ⟨e, rfl, c, by simp, by simp [hp]⟩
    | ok o =>
      cases o with
      | none => exact .inr ⟨_, rfl, c, by simp, by simp [hp]⟩
      | some v =>
        have hv := C13_unsigned _ _ _ _ _ hb hp
        obtain ⟨out, h1, h2, h3⟩ := henc v hv.1 hv.2
        simp only [bind_eq, lift_eq, h1]
        rcases ih with ⟨items, i1, i2, i3⟩ | ⟨e, i1, c', i2, i3⟩
        · left
          refine ⟨(c, out) :: items, by simp [i1], ?_, by rw [i3]; rfl⟩
          intro i hi
          rcases List.mem_cons.1 hi with rfl | hi
          · exact ⟨v, hp, h2, h3⟩
          · exact i2 i hi
        · right
          exact ⟨e, by rw [i1], c', by simp [i2], i3⟩

theorem byte_enc (v : Int) (h0 : 0 ≤ v) (h1 : v < 2 ^ 8) :
    ∃ out, bytesRep v 1 = .ok out ∧ out.length = 1 ∧ (ofLE out : Int) = v := by
  refine ⟨[BitVec.ofInt 8 v], ?_, rfl, ?_⟩
  · unfold bytesRep; rw [if_neg (by decide), if_pos ⟨h0, h1⟩]; rfl
  · simp [ofLE, BitVec.toNat_ofInt]; omega

theorem word_enc (v : Int) (h0 : 0 ≤ v) (h1 : v < 2 ^ 16) :
    ∃ out, packLe16u [some v] = .ok out ∧ out.length = 2 ∧ (ofLE out : Int) = v := by
  obtain ⟨out, h2, h3, h4⟩ := pack_one C01_pack_le16u v h0 h1
  exact ⟨out, h2, h3, h4⟩

/-- How the items of a json list are read. -/
theorem jsonItems_cases (d : Dialect) (items : List (Int ⊕ Str)) (s : St) :
    (∃ l : List ((Int ⊕ Str) × Bytes), l.map Prod.fst = items ∧
      (∀ i ∈ l, JsonByte (fun t => parseInteger d.sy s.labels t 8 false) i.1 i.2) ∧
      jsonItems d items s = (.ok (l.flatMap Prod.snd), s)) ∨
    (∃ e, jsonItems d items s = (.error e, s) ∧
      ∃ i ∈ items, (∀ v, i = .inl v → ¬ (0 ≤ v ∧ v < 256)) ∧
        (∀ t, i = .inr t → ∀ v, parseInteger d.sy s.labels t 8 false ≠ .ok (some v))) := by
  induction items with
  | nil => exact .inl ⟨[], rfl, by simp, rfl⟩
  | cons i r ih =>
    cases i with
    | inl v =>
      unfold jsonItems
      rw [bind_eq, lift_eq]
      by_cases hv : 0 ≤ v ∧ v < 256
      · obtain ⟨out, h1, h2, h3⟩ := byte_enc v hv.1 hv.2
        simp only [h1, bind_eq]
        rcases ih with ⟨l, i1, i2, i3⟩ | ⟨e, i1, c', i2, i3⟩
        · left
          refine ⟨(.inl v, out) :: l, by simp [i1], ?_, by rw [i3]; rfl⟩
          intro i hi
          rcases List.mem_cons.1 hi with rfl | hi
          · exact ⟨h2, h3⟩
          · exact i2 i hi
        · right
          exact ⟨e, by rw [i1], c', by simp [i2], i3⟩
      · have : bytesRep v 1 = .error .valueError := by
          unfold bytesRep; rw [if_neg (by decide), if_neg hv]
        rw [this]
        refine .inr ⟨_, rfl, .inl v, by simp, ?_, by simp⟩
        intro w hw; injection hw with hw; subst hw; exact hv
    | inr t =>
      have hp0 : parseIntegerM d t 8 false s = (parseInteger d.sy s.labels t 8 false, s) := rfl
      unfold jsonItems
      rw [bind_eq, hp0]
      have hbad : (∀ v, parseInteger d.sy s.labels t 8 false ≠ .ok (some v)) →
          ∃ i ∈ (Sum.inr t :: r : List (Int ⊕ Str)), (∀ v, i = .inl v → ¬ (0 ≤ v ∧ v < 256)) ∧
            (∀ t, i = .inr t → ∀ v, parseInteger d.sy s.labels t 8 false ≠ .ok (some v)) := by
        intro h
        refine ⟨.inr t, by simp, by simp, ?_⟩
        intro t' ht'; injection ht' with ht'; subst ht'; exact h
      cases hp : parseInteger d.sy s.labels t 8 false with
      | error e => exact .inr ⟨e, rfl, hbad (by simp [hp])⟩
      | ok o =>
        cases o with
        | none => exact .inr ⟨_, rfl, hbad (by simp [hp])⟩
        | some v =>
          have hv := C13_unsigned _ _ _ _ _ (by decide) hp
          obtain ⟨out, h1, h2, h3⟩ := byte_enc v hv.1 hv.2
          simp only [bind_eq, lift_eq, h1]
          rcases ih with ⟨l, i1, i2, i3⟩ | ⟨e, i1, c', i2, i3⟩
          · left
            refine ⟨(.inr t, out) :: l, by simp [i1], ?_, by rw [i3]; rfl⟩
            intro i hi
            rcases List.mem_cons.1 hi with rfl | hi
            · exact ⟨v, hp, h2, h3⟩
            · exact i2 i hi
          · right
            exact ⟨e, by rw [i1], c', by simp [i2], i3⟩

theorem appendBytes_run (blob : Bytes) (s : St) : appendBytes blob s = (.ok (), grownBy s blob) := rfl

/-- How each csv directive is executed. -/
theorem csv_exec {d : Dialect} {env : Env} {rec : Str → M Unit} {name : String} {size : Nat}
    (hn : (name, size) ∈ csvSizes) (hc : d.directives env (d.key name.toList) = none)
    {t : Str} (ht : IsDirectiveToken d t name) (args : List Str) (s : St) :
    ∃ enc : Int → Except Err Bytes, (∀ v : Int, 0 ≤ v → v < 2 ^ (8 * size) → ∃ out, enc v = .ok out ∧ out.length = size ∧ (ofLE out : Int) = v) ∧
      1 ≤ 8 * size ∧
      execDirective d env rec (t :: args) s =
        (exactlyTwo (t :: substituteWithDict args s.defines 0) >>= fun a => stringify a >>= fun name =>
          openFile (env.csv name) >>= fun rows => csvCells d (8 * size) enc rows.flatten >>= appendBytes) s := by
  simp only [csvSizes, List.mem_cons, List.not_mem_nil, or_false, Prod.mk.injEq] at hn
  rcases hn with ⟨rfl, rfl⟩ | ⟨rfl, rfl⟩
  · refine ⟨fun v => bytesRep v 1, byte_enc, by decide, ?_⟩
    rw [exec_builtin (p := ("inccsv", directiveInccsv d env)) (by simp [builtinDirective]) hc ht]
    rfl
  · refine ⟨fun v => packLe16u [some v], word_enc, by decide, ?_⟩
    rw [exec_builtin (p := ("inccsv_le16", directiveInccsvLe16 d env)) (by simp [builtinDirective]) hc ht]
    rfl

/-- Every outcome of a csv directive. -/
theorem csv_cases {d : Dialect} {env : Env} {rec : Str → M Unit} {name : String} {size : Nat}
    (hn : (name, size) ∈ csvSizes) (hc : d.directives env (d.key name.toList) = none)
    {t : Str} (ht : IsDirectiveToken d t name) (args : List Str) (s : St) :
    (∃ f rows, ∃ items : List (Str × Bytes), substituteWithDict args s.defines 0 = [f] ∧ f ≠ [] ∧
      env.csv (fileName f) = some rows ∧ items.map Prod.fst = rows.flatten ∧
      (∀ i ∈ items, CellBytes size (fun t => parseInteger d.sy s.labels t (8 * size) false) i.1 i.2) ∧
      execDirective d env rec (t :: args) s = (.ok (), grownBy s (items.flatMap Prod.snd))) ∨
    (∃ e, execDirective d env rec (t :: args) s = (.error e, s) ∧
      ∀ f rows, substituteWithDict args s.defines 0 = [f] → f ≠ [] → env.csv (fileName f) = some rows →
        ∃ c ∈ rows.flatten, ∀ v, parseInteger d.sy s.labels c (8 * size) false ≠ .ok (some v)) := by
  obtain ⟨enc, henc, hb, he⟩ := csv_exec (rec := rec) hn hc ht args s
  rw [he]
  match hargs : substituteWithDict args s.defines 0 with
  | [] => exact .inr ⟨_, rfl, by simp⟩
  | _ :: _ :: _ => exact .inr ⟨_, rfl, by simp⟩
  | [f] =>
    simp only [exactlyTwo]
    rw [bind_eq, pure_eq]
    simp only
    rw [bind_eq]
    by_cases hf : f = []
    · subst hf
      exact .inr ⟨_, rfl, fun f rows h hne => by injection h with h; exact absurd h.symm hne⟩
    · rw [stringify_run f s hf]
      simp only
      rw [bind_eq]
      cases hr : env.csv (fileName f) with
      | none => exact .inr ⟨_, rfl, fun f' rows h hne h' => by injection h with h; subst h; rw [hr] at h'; cases h'⟩
      | some rows =>
        simp only [openFile]
        rw [pure_eq]
        simp only
        rw [bind_eq]
        rcases csvCells_cases d size (8 * size) hb enc henc rows.flatten s with ⟨items, h1, h2, h3⟩ | ⟨e, h1, c, h2, h3⟩
        · rw [h3]
          exact .inl ⟨f, rows, items, rfl, hf, hr, h1, h2, rfl⟩
        · rw [h1]
          refine .inr ⟨e, rfl, fun f' rows' h _ h' => ?_⟩
          injection h with h; subst h
          rw [hr] at h'; injection h' with h'; subst h'
          exact ⟨c, h2, h3⟩

/-- C77.  `.inccsv` and `.inccsv_le16` (cells of one and two bytes) put the cells of the named
file, row by row, at the end of the output.  Every cell is a number that fits; each takes
exactly `size` bytes, least significant first whatever the processor, holding its value.
Nothing else changes but the location counter. -/
theorem C77_csv (d : Dialect) (env : Env) (rec : Str → M Unit) (name : String) (size : Nat)
    (hn : (name, size) ∈ csvSizes) (hc : d.directives env (d.key name.toList) = none)
    (t : Str) (ht : IsDirectiveToken d t name) (args : List Str) (s s' : St)
    (h : execDirective d env rec (t :: args) s = (.ok (), s')) :
    ∃ f rows, ∃ items : List (Str × Bytes), substituteWithDict args s.defines 0 = [f] ∧
      env.csv (fileName f) = some rows ∧ items.map Prod.fst = rows.flatten ∧
      (∀ i ∈ items, CellBytes size (fun t => parseInteger d.sy s.labels t (8 * size) false) i.1 i.2) ∧
      s' = grownBy s (items.flatMap Prod.snd) := by
  rcases csv_cases (rec := rec) hn hc ht args s with ⟨f, rows, items, h1, _, h2, h3, h4, h5⟩ | ⟨e, h1, _⟩
  · rw [h5] at h
    injection h with _ h
    exact ⟨f, rows, items, h1, h2, h3, h4, h.symm⟩
  · rw [h1] at h; injection h with h _; cases h

/-- C77.  A csv file is accepted exactly when there is one argument, it names a file, and every
cell is a number that fits; a file that is not accepted leaves the state as it was, so no
part of it reaches the output. -/
theorem C77_csv_accept_iff (d : Dialect) (env : Env) (rec : Str → M Unit) (name : String) (size : Nat)
    (hn : (name, size) ∈ csvSizes) (hc : d.directives env (d.key name.toList) = none)
    (t : Str) (ht : IsDirectiveToken d t name) (args : List Str) (s : St) :
    ((∃ s', execDirective d env rec (t :: args) s = (.ok (), s')) ↔
      ∃ f rows, substituteWithDict args s.defines 0 = [f] ∧ f ≠ [] ∧ env.csv (fileName f) = some rows ∧
        ∀ c ∈ rows.flatten, ∃ v, parseInteger d.sy s.labels c (8 * size) false = .ok (some v)) ∧
    ∀ e s', execDirective d env rec (t :: args) s = (.error e, s') → s' = s := by
  rcases csv_cases (rec := rec) hn hc ht args s with ⟨f, rows, items, h1, h0, h2, h3, h4, h5⟩ | ⟨e, h1, h2⟩
  · refine ⟨⟨fun _ => ⟨f, rows, h1, h0, h2, fun c hcm => ?_⟩, fun _ => ⟨_, h5⟩⟩, fun e s' h => ?_⟩
    · rw [← h3] at hcm
      obtain ⟨i, hi, rfl⟩ := List.mem_map.1 hcm
      obtain ⟨v, hv, _⟩ := h4 i hi
      exact ⟨v, hv⟩
    · rw [h5] at h; injection h with h _; cases h
  · refine ⟨⟨fun ⟨s', h⟩ => ?_, fun ⟨f, rows, g1, g0, g2, g3⟩ => ?_⟩, fun e' s' h => ?_⟩
    · rw [h1] at h; injection h with h _; cases h
    · obtain ⟨c, hcm, hno⟩ := h2 f rows g1 g0 g2
      obtain ⟨v, hv⟩ := g3 c hcm
      exact absurd hv (hno v)
    · rw [h1] at h; injection h with _ h; exact h.symm

/-- C77.  `.incbin` succeeds exactly when there is one argument and it names a file, and then
the output grows by the bytes of that file, in order, and nothing else changes but the
location counter; otherwise nothing changes at all. -/
theorem C77_incbin (d : Dialect) (env : Env) (rec : Str → M Unit)
    (hc : d.directives env (d.key "incbin".toList) = none)
    (t : Str) (ht : IsDirectiveToken d t "incbin") (args : List Str) (s : St) :
    (∀ s', execDirective d env rec (t :: args) s = (.ok (), s') ↔
      ∃ f blob, substituteWithDict args s.defines 0 = [f] ∧ f ≠ [] ∧ env.binary (fileName f) = some blob ∧
        s' = grownBy s blob) ∧
    ∀ e s', execDirective d env rec (t :: args) s = (.error e, s') → s' = s := by
  rw [exec_builtin (p := ("incbin", directiveIncbin env)) (by simp [builtinDirective]) hc ht]
  simp only [directiveIncbin]
  match hargs : substituteWithDict args s.defines 0 with
  | [] => exact ⟨fun s' => ⟨fun h => (by injection h with h _; cases h), fun ⟨_, _, h, _⟩ => by cases h⟩, fun e s' h => by injection h with _ h; exact h.symm⟩
  | _ :: _ :: _ => exact ⟨fun s' => ⟨fun h => (by injection h with h _; cases h), fun ⟨_, _, h, _⟩ => by cases h⟩, fun e s' h => by injection h with _ h; exact h.symm⟩
  | [f] =>
    simp only [exactlyTwo]
    rw [bind_eq, pure_eq]
    simp only
    rw [bind_eq]
    by_cases hf : f = []
    · subst hf
      refine ⟨fun s' => ⟨fun h => (by injection h with h _; cases h), fun ⟨f, _, h, hne, _⟩ => ?_⟩, fun e s' h => by injection h with _ h; exact h.symm⟩
      injection h with h; exact absurd h.symm hne
    · rw [stringify_run f s hf]
      simp only
      rw [bind_eq]
      cases hr : env.binary (fileName f) with
      | none =>
        refine ⟨fun s' => ⟨fun h => (by injection h with h _; cases h), fun ⟨f', _, h, _, h', _⟩ => ?_⟩, fun e s' h => by injection h with _ h; exact h.symm⟩
        injection h with h; subst h; rw [hr] at h'; cases h'
      | some blob =>
        simp only [openFile]
        rw [pure_eq]
        simp only
        rw [appendBytes_run]
        refine ⟨fun s' => ⟨fun h => ?_, fun ⟨f', blob', h, _, h', e⟩ => ?_⟩, fun e s' h => (by injection h with h _; cases h)⟩
        · injection h with _ h; exact ⟨f, blob, rfl, hf, hr, h.symm⟩
        · injection h with h; subst h; rw [hr] at h'; injection h' with h'; subst h'; rw [e]

/-- Every outcome of `.incjson`. -/
theorem json_cases {d : Dialect} {env : Env} {rec : Str → M Unit}
    (hc : d.directives env (d.key "incjson".toList) = none)
    {t : Str} (ht : IsDirectiveToken d t "incjson") (args : List Str) (s : St) :
    (∃ f k list, ∃ items : List ((Int ⊕ Str) × Bytes), substituteWithDict args s.defines 0 = [f, k] ∧ f ≠ [] ∧ k ≠ [] ∧
      env.json (fileName f) (fileName k) = .ok list ∧ items.map Prod.fst = list ∧
      (∀ i ∈ items, JsonByte (fun t => parseInteger d.sy s.labels t 8 false) i.1 i.2) ∧
      execDirective d env rec (t :: args) s = (.ok (), grownBy s (items.flatMap Prod.snd))) ∨
    (∃ e, execDirective d env rec (t :: args) s = (.error e, s) ∧
      ∀ f k list, substituteWithDict args s.defines 0 = [f, k] → f ≠ [] → k ≠ [] →
        env.json (fileName f) (fileName k) = .ok list →
        ∃ i ∈ list, (∀ v, i = .inl v → ¬ (0 ≤ v ∧ v < 256)) ∧
          (∀ t, i = .inr t → ∀ v, parseInteger d.sy s.labels t 8 false ≠ .ok (some v))) := by
  rw [exec_builtin (p := ("incjson", directiveIncjson d env)) (by simp [builtinDirective]) hc ht]
  simp only [directiveIncjson]
  match hargs : substituteWithDict args s.defines 0 with
  | [] => exact .inr ⟨_, rfl, by simp⟩
  | [_] => exact .inr ⟨_, rfl, by simp⟩
  | _ :: _ :: _ :: _ => exact .inr ⟨_, rfl, by simp⟩
  | [f, k] =>
    simp only
    rw [bind_eq]
    by_cases hf : f = []
    · subst hf
      exact .inr ⟨_, rfl, fun f k list h hne => by injection h with h; exact absurd h.symm hne⟩
    by_cases hk : k = []
    · subst hk
      rw [stringify_run f s hf]
      exact .inr ⟨_, rfl, fun f k list h _ hne => by injection h with _ h; injection h with h; exact absurd h.symm hne⟩
    rw [stringify_run f s hf]
    simp only
    rw [bind_eq, stringify_run k s hk]
    simp only
    rw [bind_eq, lift_eq]
    cases hr : env.json (fileName f) (fileName k) with
    | error e =>
      refine .inr ⟨_, rfl, fun f' k' list h _ _ h' => ?_⟩
      injection h with h1 h; injection h with h2; subst h1 h2; rw [hr] at h'; cases h'
    | ok list =>
      simp only
      rw [bind_eq]
      rcases jsonItems_cases d list s with ⟨items, h1, h2, h3⟩ | ⟨e, h1, c, h2, h3⟩
      · rw [h3]
        exact .inl ⟨f, k, list, items, rfl, hf, hk, hr, h1, h2, rfl⟩
      · rw [h1]
        refine .inr ⟨e, rfl, fun f' k' list' h _ _ h' => ?_⟩
        injection h with e1 h; injection h with e2; subst e1 e2
        rw [hr] at h'; injection h' with h'; subst h'
        exact ⟨c, h2, h3⟩

/-- C77.  `.incjson` puts the items of the list found under the key at the end of the output, one
byte each, in order. -/
theorem C77_json (d : Dialect) (env : Env) (rec : Str → M Unit)
    (hc : d.directives env (d.key "incjson".toList) = none)
    (t : Str) (ht : IsDirectiveToken d t "incjson") (args : List Str) (s s' : St)
    (h : execDirective d env rec (t :: args) s = (.ok (), s')) :
    ∃ f k list, ∃ items : List ((Int ⊕ Str) × Bytes), substituteWithDict args s.defines 0 = [f, k] ∧
      env.json (fileName f) (fileName k) = .ok list ∧ items.map Prod.fst = list ∧
      (∀ i ∈ items, JsonByte (fun t => parseInteger d.sy s.labels t 8 false) i.1 i.2) ∧
      s' = grownBy s (items.flatMap Prod.snd) := by
  rcases json_cases (rec := rec) hc ht args s with ⟨f, k, list, items, h1, _, _, h2, h3, h4, h5⟩ | ⟨e, h1, _⟩
  · rw [h5] at h
    injection h with _ h
    exact ⟨f, k, list, items, h1, h2, h3, h4, h.symm⟩
  · rw [h1] at h; injection h with h _; cases h

/-- C77.  When a json list is accepted: integers must be bytes, and strings must be numbers that
fit in a byte.  A list that is not accepted leaves the state as it was. -/
theorem C77_json_accept_iff (d : Dialect) (env : Env) (rec : Str → M Unit)
    (hc : d.directives env (d.key "incjson".toList) = none)
    (t : Str) (ht : IsDirectiveToken d t "incjson") (args : List Str) (s : St) :
    ((∃ s', execDirective d env rec (t :: args) s = (.ok (), s')) ↔
      ∃ f k list, substituteWithDict args s.defines 0 = [f, k] ∧ f ≠ [] ∧ k ≠ [] ∧
        env.json (fileName f) (fileName k) = .ok list ∧
        (∀ v, .inl v ∈ list → 0 ≤ v ∧ v < 256) ∧
        ∀ t, .inr t ∈ list → ∃ v, parseInteger d.sy s.labels t 8 false = .ok (some v)) ∧
    ∀ e s', execDirective d env rec (t :: args) s = (.error e, s') → s' = s := by
  rcases json_cases (rec := rec) hc ht args s with ⟨f, k, list, items, h1, hf, hk, h2, h3, h4, h5⟩ | ⟨e, h1, h2⟩
  · refine ⟨⟨fun _ => ⟨f, k, list, h1, hf, hk, h2, fun v hv => ?_, fun t ht => ?_⟩, fun _ => ⟨_, h5⟩⟩, fun e s' h => ?_⟩
    · rw [← h3] at hv
      obtain ⟨⟨i, out⟩, hi, rfl⟩ := List.mem_map.1 hv
      obtain ⟨l1, l2⟩ := h4 _ hi
      match out, l1, l2 with
      | [x], _, l2 =>
        simp only [ofLE] at l2
        have := x.isLt
        omega
    · rw [← h3] at ht
      obtain ⟨⟨i, out⟩, hi, rfl⟩ := List.mem_map.1 ht
      obtain ⟨v, hv, _⟩ := h4 _ hi
      exact ⟨v, hv⟩
    · rw [h5] at h; injection h with h _; cases h
  · refine ⟨⟨fun ⟨s', h⟩ => ?_, fun ⟨f, k, list, g1, gf, gk, g2, g3, g4⟩ => ?_⟩, fun e' s' h => ?_⟩
    · rw [h1] at h; injection h with h _; cases h
    · obtain ⟨i, hi, n1, n2⟩ := h2 f k list g1 gf gk g2
      cases i with
      | inl v => exact absurd (g3 v hi) (n1 v rfl)
      | inr t => obtain ⟨v, hv⟩ := g4 t hi; exact absurd hv (n2 t rfl v)
    · rw [h1] at h; injection h with _ h; exact h.symm

/-- A file system with one file of each sort. -/
def sampleFiles : Env where
  binary := fun n => if n = "a.bin".toList then some [7#8, 0#8, 9#8] else none
  csv := fun n => if n = "a.csv".toList then some [["1".toList, "-1".toList], [], ["$20".toList]] else none
  json := fun n k => if n = "a.json".toList ∧ k = "map.rows".toList then .ok [.inl 5, .inr "$ff".toList] else .error .fileNotFoundError

/-- On the big-endian 68000: three cells take six bytes, each least significant byte first. -/
example : (execDirective mc68000 sampleFiles (fun _ => pure ()) [".inccsv_le16".toList, "\"a.csv\"".toList] {}).1.toOption = some () ∧
    (execDirective mc68000 sampleFiles (fun _ => pure ()) [".inccsv_le16".toList, "\"a.csv\"".toList] {}).2.bytes =
      [1#8, 0#8, 0xFF#8, 0xFF#8, 0x20#8, 0#8] ∧
    (execDirective mc68000 sampleFiles (fun _ => pure ()) [".inccsv".toList, "\"a.csv\"".toList] {}).2.bytes = [1#8, 0xFF#8, 0x20#8] ∧
    (execDirective mc68000 sampleFiles (fun _ => pure ()) [".incbin".toList, "a.bin".toList] {}).2.bytes = [7#8, 0#8, 9#8] ∧
    (execDirective mc68000 sampleFiles (fun _ => pure ()) [".incjson".toList, "\"a.json\"".toList, "\"map.rows\"".toList] {}).2.bytes = [5#8, 0xFF#8] ∧
    (execDirective mc68000 sampleFiles (fun _ => pure ()) [".incbin".toList, "b.bin".toList] {}).1.toOption = none := by
  decide +kernel

example : ("inccsv_le16", 2) ∈ csvSizes ∧ mc68000.directives sampleFiles (mc68000.key "inccsv_le16".toList) = none ∧
    mc68000.directives sampleFiles (mc68000.key "incbin".toList) = none ∧ mc68000.directives sampleFiles (mc68000.key "incjson".toList) = none ∧
    IsDirectiveToken mc68000 ".INCCSV_le16".toList "inccsv_le16" ∧ IsDirectiveToken mc68000 ".incbin".toList "incbin" ∧
    IsDirectiveToken mc68000 ".incjson".toList "incjson" ∧
    substituteWithDict ["a.csv".toList] ({} : St).defines 0 = ["a.csv".toList] := by
  refine ⟨by decide, rfl, rfl, rfl, ?_, ?_, ?_, by decide +kernel⟩ <;> (unfold IsDirectiveToken; decide +kernel)

end Necro
