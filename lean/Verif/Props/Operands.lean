import Verif.Lemmas.Operands
import Verif.Model.Programs
import Verif.Lemmas.Console
import Verif.Props.Enclosed
import Verif.Props.Whole
/-!
# C90: what operands can look like, and the Z80 instructions no program can contain
-/

namespace Necro
open Spec

variable {env : Env} {n : Nat} {codes : List Str} {s s1 e : St} {t : Str} {rest : List Str} {blob : Bytes} {rels : List Reloc}

/-! ## The directives of the consoles leave defines and macros alone -/

section
variable {P : Str → Prop}

theorem tok_writeAt (bs : Bytes) : ∀ (x : Nat), Keeps (TokRel P) (writeAt x bs) := by
  induction bs with
  | nil => intro x s; exact fun h => h
  | cons b bs ih =>
    intro x
    refine Keeps.bind (tokData P) (f := fun _ => writeAt (x + 1) bs) ?_ (fun _ => ih _)
    intro s
    unfold setByte
    split <;> exact tok_same rfl rfl

theorem tok_fill (d : Dialect) (address size : Nat) (l : List Str) : Keeps (TokRel P) (cartridgeFill d address size l) := by
  have hd := tokData P
  refine .bind hd (.get hd) fun s => ?_
  split
  · exact .throw hd _
  split
  · exact .throw hd _
  refine .bind hd ?_ fun bs => ?_
  · intro s
    have := (parseBytes_spec d (l.drop 1) s).1
    unfold headerBytes
    split
    · next e => rw [e] at this; rw [show _ = s from this]; exact hd.refl s
    · next e => rw [this]; exact hd.refl s
  split
  · exact .throw hd _
  · exact tok_writeAt bs address

theorem tok_gameboy (base : Dialect) (env : Env) : CustomKeeps (gameboyOn base) env (TokRel P) := by
  intro key f hf ts
  refine custom_class (d := base) (l := gameboyDirectives base env) (fun p hp ts => ?_) hf ts
  have hd := tokData P
  simp only [gameboyDirectives, List.mem_cons, List.not_mem_nil, or_false] at hp
  rcases hp with rfl | rfl | rfl | rfl | rfl | rfl | rfl | rfl
  · refine .bind hd (.get hd) fun s => ?_
    split
    · exact .throw hd _
    · exact .bind hd (tok_changeOrg base _ _) fun _ => .bind hd (.appendBytes hd _) fun _ => fun s => tok_same rfl rfl
  · exact tok_fill base _ _ ts
  · exact tok_fill base _ _ ts
  · exact tok_fill base _ _ ts
  · exact tok_fill base _ _ ts
  · exact tok_fill base _ _ ts
  · exact tok_fill base _ _ ts
  · exact kept_tiles hd env _ _ _ ts

theorem tok_nes (env : Env) : CustomKeeps nes env (TokRel P) := by
  intro key f hf ts
  refine custom_class (d := mos6502) (l := nesDirectives mos6502 env) (fun p hp ts => ?_) hf ts
  have hd := tokData P
  simp only [nesDirectives, List.mem_cons, List.not_mem_nil, or_false] at hp
  rcases hp with rfl | rfl | rfl | rfl
  · refine .bind hd (.get hd) fun s => ?_
    split
    · exact .throw hd _
    · exact .bind hd (.appendBytes hd _) fun _ => fun s => tok_same rfl rfl
  · exact tok_fill mos6502 _ _ ts
  · exact tok_fill mos6502 _ _ ts
  · exact kept_tiles hd env _ _ _ ts

theorem tok_x86 (env : Env) : CustomKeeps x86 env (TokRel P) := by
  have hd := tokData P
  intro key f hf ts
  simp only [x86] at hf
  split at hf
  · cases hf
    unfold x86Bits
    split
    · refine .bind hd (.readOnly hd (parseIntegerM_state _ _ _ _)) fun v => ?_
      split
      · split
        · exact fun s => tok_same rfl rfl
        · exact .throw hd _
      · exact .throw hd _
    · exact .throw hd _
  · cases hf

theorem tok_tool (tool : Tool) (env : Env) : CustomKeeps tool.dialect env (TokRel P) := by
  cases tool <;> first
    | exact noCustom (fun _ => rfl) _
    | exact tok_x86 env
    | exact tok_gameboy _ env
    | exact tok_nes env
    | exact sms_custom _ env (tokData P)

end

theorem plain_unbroken {d : List (Str × Str)} (h : (d.all fun p => p.2.all fun c => !separates c) = true) : ∀ p ∈ d, Unbroken p.2 := by
  intro p hp
  refine unbroken_of_none fun c hc => ?_
  have := List.all_eq_true.1 (List.all_eq_true.1 h p hp) c hc
  simpa using this

theorem tool_defines (tool : Tool) : ∀ p ∈ tool.dialect.defines, Unbroken p.2 := by
  cases tool <;> exact plain_unbroken (by decide +kernel)

/-- C90: whatever the sources, includes, defines and macros, a token of an instruction line contains a blank, a line end, a comma, a
semicolon, a colon or a quote only if it has two quotes. -/
theorem C90_operands (tool : Tool) (h : Visits tool.dialect env s t rest s1 n (.sources codes) tool.dialect.init e) : ∀ tok ∈ t :: rest, Unbroken tok :=
  tok_visits substitutes_unbroken (fun _ => shape_unbroken) (tok_tool tool env) h ⟨tool_defines tool, fun _ hm => by cases hm⟩ trivial

/-! ## Z80 -/

theorem upper_of_separator {c r : Char} (hr : r ∈ " \n\r\t,;:\"'".toList) : c.toUpper = r ↔ c = r := by
  have h1 : ∀ r ∈ " \n\r\t,;:\"'".toList, r.isLower = false ∧ r.toLower = r ∧ r.toUpper = r := by decide
  obtain ⟨a, b, d⟩ := h1 r hr
  constructor
  · intro h
    rcases toUpper_eq a h with h | h
    · exact h
    · rw [h, b]
  · rintro rfl; exact d

theorem upper_separates (c : Char) : separates c.toUpper = separates c := by
  rw [Bool.eq_iff_iff, separates_iff, separates_iff]
  constructor
  · intro h
    have e := (upper_of_separator h).1 rfl
    rw [← e] at h
    exact h
  · intro h; rw [(upper_of_separator h).2 rfl]; exact h

theorem upper_quote (c : Char) : isQuoteChar c.toUpper = isQuoteChar c := by
  unfold isQuoteChar
  rw [decide_eq_decide.2 (upper_of_separator (c := c) (r := '"') (by decide)), decide_eq_decide.2 (upper_of_separator (c := c) (r := '\'') (by decide))]

theorem unbroken_upper (w : Str) : Unbroken (upper w) ↔ Unbroken w := by
  have h1 : quotes (upper w) = quotes w := by
    unfold quotes upper
    rw [List.countP_map]
    exact List.countP_congr fun c _ => by simp [upper_quote]
  unfold Unbroken
  rw [h1]
  refine imp_congr_left ⟨?_, ?_⟩
  · rintro ⟨c, hc, hs⟩
    obtain ⟨x, hx, rfl⟩ := List.mem_map.1 hc
    exact ⟨x, hx, by rw [← upper_separates]; exact hs⟩
  · rintro ⟨c, hc, hs⟩
    exact ⟨_, List.mem_map.2 ⟨c, hc, rfl⟩, by rw [upper_separates]; exact hs⟩

/-- A word of the table that is not the text of an operand. -/
def brokenWord (w : String) : Bool := (z80Pat w matches .str _) && w.toList.any separates && decide (quotes w.toList < 2)

theorem match_unbroken : ∀ {ts : List Str} {ws : List String}, matchUtil ts (ws.map z80Pat) = true → (∀ tok ∈ ts, Unbroken tok) → ∀ w ∈ ws, brokenWord w = false
  | [], [], _, _ => by simp
  | [], _ :: _, h, _ => by cases h
  | _ :: _, [], h, _ => by cases h
  | tok :: ts, w :: ws, h, hu => by
    simp only [List.map_cons, matchUtil, Bool.and_eq_true] at h
    intro w' hw'
    rcases List.mem_cons.1 hw' with rfl | hw'
    · cases hb : brokenWord w' with
      | false => rfl
      | true =>
        simp only [brokenWord, Bool.and_eq_true, decide_eq_true_eq, List.any_eq_true] at hb
        obtain ⟨⟨h1, h2⟩, h3⟩ := hb
        have hp : z80Pat w' = .str w'.toList := by
          unfold z80Pat at h1 ⊢
          by_cases c1 : w' = "nn" ∨ w' = "n" ∨ w' = "e" ∨ w' = "d"
          · rw [if_pos c1] at h1; cases h1
          by_cases c2 : w' = "IX+d"
          · rw [if_neg c1, if_pos c2] at h1; cases h1
          by_cases c3 : w' = "IY+d"
          · rw [if_neg c1, if_neg c2, if_pos c3] at h1; cases h1
          rw [if_neg c1, if_neg c2, if_neg c3]
        have h4 := h.1
        rw [hp] at h4
        have h4 : upper tok = upper w'.toList := by simpa [Pat.matches₀] using h4
        have h5 := (unbroken_upper tok).2 (hu tok (by simp))
        rw [h4, unbroken_upper] at h5
        have := h5 h2
        omega
    · exact match_unbroken h.2 (fun x hx => hu x (by simp [hx])) w' hw'

theorem unwritable_rows : ∀ r ∈ z80Table, r.2.2.any brokenWord = true ∨ (z80RowOk r = true ∧ (z80RowShape r.1).all (fun p => !Z80Unwritable p.1 p.2) = true) ∨
    (r.2.1 = "LD" ∧ (r.1 = [0xDD36] ∨ r.1 = [0xFD36]) ∧ z80HookOf r.2.2 0 = some (.n, 3)) := by
  decide +kernel

/-- C90 for a line whose tokens are operands. -/
theorem unwritable_line {c : Ctx} (hu : ∀ tok ∈ rest, Unbroken tok) (h : Emits z80 c t rest blob rels) {i : Z80Instr} (hd : decodeZ80 blob = some i) :
    Z80Unwritable i.mnemonic i.args = false := by
  obtain ⟨r, hr, ht, hm, he⟩ := z80_row h
  rcases unwritable_rows r hr with hb | ⟨hok, hs⟩ | ⟨-, hc, hk⟩
  · obtain ⟨w, hw, hb⟩ := List.any_eq_true.1 hb
    rw [match_unbroken hm hu w hw] at hb
    cases hb
  · obtain ⟨as, h1, -⟩ := rowOk_parts hok
    obtain ⟨i', h2, h3, h4⟩ := row_shape hok h1 ht hm he
    rw [hd] at h2
    cases h2
    rw [h1] at hs
    rw [h3, h4]
    simpa using hs
  · obtain ⟨v, -, hb⟩ := z80Emit_ok hk rfl (by rintro ⟨⟩) he
    rcases hc with hc | hc <;> rw [hc] at hb <;> rw [hb] at hd <;> cases hd

/-- C90: no line of any Z80 program assembles to `EX AF,AF'`, to an instruction that copies its result to a register, or to `IN F,(C)`. -/
theorem C90_unwritable (h : Visits z80 env s t rest s1 n (.sources codes) z80.init e) (hem : Emits z80 (ctxOf z80 s) t rest blob rels) {i : Z80Instr}
    (hd : decodeZ80 blob = some i) : Z80Unwritable i.mnemonic i.args = false :=
  unwritable_line (fun tok ht => C90_operands .z80 h tok (List.mem_cons_of_mem _ ht)) hem hd

/-- C90: the same for the Master System. -/
theorem C90_unwritable_sms (h : Visits (smsOn z80) env s t rest s1 n (.sources codes) (smsOn z80).init e)
    (hem : Emits (smsOn z80) (ctxOf (smsOn z80) s) t rest blob rels) {i : Z80Instr} (hd : decodeZ80 blob = some i) : Z80Unwritable i.mnemonic i.args = false :=
  unwritable_line (fun tok ht => C90_operands .sms h tok (List.mem_cons_of_mem _ ht)) ((same_sms z80).emits hem) hd

theorem flag_rows : ∀ r ∈ z80Table, r.2.1 = "IN" → r.2.2.length = 8 → r.2.2.any brokenWord = true := by decide +kernel

/-- C90: the only lines of Z80 programs that assemble to something else than they say are those that store at an index register with a displacement. -/
theorem C90_odd (h : Visits z80 env s t rest s1 n (.sources codes) z80.init e) (hem : Emits z80 (ctxOf z80 s) t rest blob rels) (ho : Z80Odd t rest) :
    ∃ tok x, eqNoCase t "LD".toList ∧ rest = [['('], tok, [')'], x] ∧ Z80Indexed tok := by
  cases ho with
  | store h1 h2 h3 _ => exact ⟨_, _, h1, h2, h3⟩
  | flags h1 h2 =>
    obtain ⟨r, hr, ht, hm, -⟩ := z80_row hem
    have hlen := match_length hm
    rw [List.length_map, h2] at hlen
    have hb := flag_rows r hr (name_eq hr (by decide) ht h1) hlen.symm
    obtain ⟨w, hw, hb⟩ := List.any_eq_true.1 hb
    rw [match_unbroken hm (fun tok ht => C90_operands .z80 h tok (List.mem_cons_of_mem _ ht)) w hw] at hb
    cases hb

/-! ## Examples -/

/-- The tokens of a program with a definition, a macro and a label. -/
example : ∀ tok ∈ "LD".toList :: (["A", "(", "table", ")"].map String.toList), Unbroken tok := by
  obtain ⟨s1, h⟩ := exWholeZ80_built.visits
  exact C90_operands .z80 h

/-- Quotes let a token contain blanks. -/
example : Unbroken "\"a b\"".toList ∧ ¬ Unbroken "AF'".toList ∧ ¬ Unbroken "RLC ".toList := by
  refine ⟨fun _ => by decide, fun h => ?_, fun h => ?_⟩
  · exact absurd (h ⟨'\'', by decide, by decide⟩) (by decide)
  · exact absurd (h ⟨' ', by decide, by decide⟩) (by decide)

/-- The tokens of `EX AF,AF'`, if there were a line with them, would be the exchange. -/
example : Emits z80 (ctxOf z80 z80.init) "EX".toList ["AF".toList, "AF'".toList] [0x08] [] ∧ decodeZ80 [0x08] = some ⟨"EX", [.reg "AF", .reg "AF'"], 0, 0⟩ ∧
    Z80Unwritable "EX" [.reg "AF", .reg "AF'"] = true :=
  ⟨.handler rfl (Prod.ext (by decide +kernel) rfl), by decide +kernel, by decide +kernel⟩

/-- What becomes of the line in a source: the quote begins a literal that is not ended, so the line and all that follows are dropped without an error. -/
example : (assemble z80 {} 3 "NOP\nEX AF,AF'\nINC A\n".toList z80.init).1 = .ok () ∧ (assemble z80 {} 3 "NOP\nEX AF,AF'\nINC A\n".toList z80.init).2.bytes = [0] := by
  decide +kernel

example : Z80Unwritable "LD" [.reg "A", .mem16] = false := by
  obtain ⟨s1, h⟩ := exWholeZ80_built.visits
  have he : Emits z80 (ctxOf z80 (exReach z80 exZ80Pre)) "LD".toList (["A", "(", "table", ")"].map String.toList) [0x3A, 0, 0]
      [{ label := "table".toList, size := 2, bitsSize := 16, offset := 1 }] := .handler rfl (Prod.ext (by decide +kernel) rfl)
  exact C90_unwritable h he (i := ⟨"LD", [.reg "A", .mem16], 0, 0⟩) (by decide +kernel)

end Necro
