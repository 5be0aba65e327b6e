import Verif.Spec.FileLine
import Verif.Props.Programs
import Verif.Props.Whole
/-!
# C88: from the sources on disk to the output on disk

A line of a program, in whichever of its files, is in the output file at the place it was assembled for.
-/

namespace Necro
open Spec
open M (throw get modify lift forEach times)

variable {tool : Tool} {m : Machine} {disk disk' : Disk} {args codes : List Str} {out : Str} {s s' : St} {t : Str} {rest : List Str}

theorem read_sources {d : Dialect} {env : Env} {n : Nat} : ∀ {names codes : List Str}, names.map env.text = codes.map some → ∀ s,
    forEach names (fun name => (do let code ← openFile (env.text name); assemble d env n code : M Unit)) s = forEach codes (assemble d env n) s
  | [], [], _, _ => rfl
  | [], _ :: _, h, _ => by cases h
  | _ :: _, [], h, _ => by cases h
  | name :: names, code :: codes, h, s => by
    simp only [List.map_cons, List.cons.injEq] at h
    rw [forEach_cons, forEach_cons]
    have e : (do let code ← openFile (env.text name); assemble d env n code : M Unit) s = assemble d env n code s := by
      rw [bind_eq, h.1]; rfl
    rw [e]
    split
    · exact read_sources h.2 _
    · rfl

/-- A line of the sources is a line of the program that is linked. -/
theorem Spec.FileLine.built (hl : FileLine tool m disk args codes s t rest s') {e : St}
    (h : mainRun tool.dialect (m.view disk) m.depth (sourceFiles tool args) tool.dialect.init = (.ok (), e)) :
    BuiltLine tool.dialect (m.view disk) m.depth codes s t rest s' e := by
  obtain ⟨s1, hv⟩ := hl.visits
  refine ⟨⟨s1, hv⟩, ?_, hl.noText⟩
  unfold mainRun at h
  rw [bind_eq, read_sources hl.read] at h
  have hr : forEach codes (assemble tool.dialect (m.view disk) m.depth) tool.dialect.init = (.ok (), s') := hv.run
  rw [hr] at h
  exact h

theorem build_ends {d : Dialect} {env : Env} {n : Nat} {names : List Str} {b : Bytes} (h : build d env n names = .ok b) :
    ∃ e, mainRun d env n names d.init = (.ok (), e) ∧ e.bytes = b := by
  unfold build at h
  split at h
  · next e he => cases h; exact ⟨e, he, rfl⟩
  · cases h

theorem window_outside' {a b x n : Nat} {rom rom' : Bytes} (h : SameOutside a b rom rom') (hx : ∀ i, x ≤ i → i < x + n → i < a ∨ b < i) :
    window rom' x n = window rom x n := by
  apply List.ext_getElem?
  intro i
  simp only [window, List.getElem?_take, List.getElem?_drop]
  split
  · exact h.2 _ (hx _ (by omega) (by omega))
  · rfl

theorem window_body {file code : Bytes} {a x n : Nat} (h : window file a code.length = code) (hx : x + n ≤ code.length) :
    window file (a + x) n = window code x n := by
  conv => rhs; rw [← h]
  apply List.ext_getElem?
  intro i
  simp only [window, List.getElem?_take, List.getElem?_drop]
  split
  · rw [if_pos (by omega), Nat.add_assoc]
  · rfl

/-- What the program does when it succeeds. -/
theorem tool_run (hw : WritesCode tool) (h : tool.run m args disk = (.ok (), disk')) (ho : outputFile tool args = some out) :
    ∃ e file, mainRun tool.dialect (m.view disk) m.depth (sourceFiles tool args) tool.dialect.init = (.ok (), e) ∧ disk' out = some file ∧
      ∀ x n, x + n ≤ e.bytes.length → (∀ i, x ≤ i → i < x + n → ¬ Patched tool i) → window file (codeStart tool + x) n = window e.bytes x n := by
  have main {d : Dialect} (h : assemblerMain (build d) m args disk = (.ok (), disk')) (ho : args.getLast? = some out) :
      ∃ e file, mainRun d (m.view disk) m.depth args.dropLast d.init = (.ok (), e) ∧ disk' out = some file ∧
        ∀ x n, x + n ≤ e.bytes.length → (∀ i, x ≤ i → i < x + n → ¬ False) → window file (0 + x) n = window e.bytes x n := by
    obtain ⟨l, rfl⟩ : ∃ l, args = l ++ [out] := by
      obtain ⟨l, hl⟩ := List.getLast?_eq_some_iff.1 ho
      exact ⟨l, hl⟩
    obtain ⟨b, hb, hw⟩ := main_ok h
    obtain ⟨e, he, rfl⟩ := build_ends hb
    exact ⟨e, _, by simpa using he, hw.1, fun x n _ _ => by rw [Nat.zero_add]⟩
  have own {d : Dialect} {fix : M Unit} {file : Bytes → Except Err Bytes} (h : fileMain d fix file m args disk = (.ok (), disk')) (ho : args[1]? = some out) :
      ∃ e e' f, mainRun d (m.view disk) m.depth (args.take 1) d.init = (.ok (), e) ∧ fix e = (.ok (), e') ∧ file e'.bytes = .ok f ∧ disk' out = some f := by
    match args, ho with
    | a :: b :: l, ho =>
      cases ho
      obtain ⟨e, e', f, h1, h2, h3, hw⟩ := file_ok h
      exact ⟨e, e', f, h1, h2, h3, hw.1⟩
  cases tool
  case i386Elf | ppcElf | x86Elf => exact hw.elim
  case gba =>
    obtain ⟨e, e', f, h1, h2, h3, h4⟩ := own h ho
    cases h3
    refine ⟨e, _, h1, h4, fun x n _ hp => ?_⟩
    show window _ (0 + x) n = _
    rw [Nat.zero_add]
    refine window_outside' (C47_gba_check e e' h2).2 fun i h1 h2 => ?_
    have := hp i h1 h2
    simp only [Patched] at this
    omega
  case genesis =>
    obtain ⟨e, e', f, h1, h2, h3, h4⟩ := own h ho
    cases h3
    refine ⟨e, _, h1, h4, fun x n _ hp => ?_⟩
    show window _ (0 + x) n = _
    rw [Nat.zero_add]
    refine window_outside' (C47_genesis_check e e' h2).2 fun i h1 h2 => ?_
    have := hp i h1 h2
    simp only [Patched] at this
    omega
  case psx =>
    obtain ⟨e, e', f, h1, h2, h3, h4⟩ := own h ho
    cases h2
    obtain ⟨f', hf, hp⟩ := C48_layout e.bytes
    rw [h3] at hf
    cases hf
    refine ⟨e, _, h1, h4, fun x n hx _ => ?_⟩
    exact window_body hp.body hx
  case nes =>
    have ho' : args[1]? = some out := ho
    match args, ho' with
    | a :: b :: l, ho' =>
      cases ho'
      obtain ⟨rom, nl, ram, h1, h2, -⟩ := C86_nes m a out l disk disk' h
      unfold nesMain at h1
      split at h1
      · cases h1
      · next e he =>
        split at h1
        · cases h1
        · split at h1
          · cases h1
          · cases h1
            exact ⟨e, _, he, h2, fun x n _ _ => by show window _ (0 + x) n = _; rw [Nat.zero_add]⟩
  all_goals exact main h ho

theorem sound_tool (tool : Tool) : ∃ head, Sound tool.dialect head := by
  cases tool
  case sms => exact ⟨_, sound_sms⟩
  case gameboy => exact ⟨_, sound_gameboy⟩
  case nes => exact ⟨_, sound_nes⟩
  case mos6502 => exact ⟨_, sound_processor .mos6502⟩
  case mips32 => exact ⟨_, sound_processor (.mips true)⟩
  case psx => exact ⟨_, sound_processor (.mips false)⟩
  case lr35902 => exact ⟨_, sound_processor .lr35902⟩
  case thumb | gba => exact ⟨_, sound_processor .thumb⟩
  case mc68000 | genesis => exact ⟨_, sound_processor .mc68000⟩
  case i8086 | i386Elf => exact ⟨_, sound_processor .i8086⟩
  case z80 => exact ⟨_, sound_processor .z80⟩
  case ppc | ppcElf => exact ⟨_, sound_processor .ppc⟩
  case x86 | x86Elf => exact ⟨_, sound_processor .x86⟩

theorem link_length (tool : Tool) {a b : St} (h : link tool.dialect .dummy a = (.ok (), b))
    (hh : ∀ e ∈ a.relocs, e.2.hook = none) : b.bytes.length = a.bytes.length := by
  by_cases hg : tool = .gameboy
  · subst hg
    obtain ⟨c, h1, h2, -⟩ := C76_gameboy_image lr35902 rfl .dummy a b h
    have := (C36_windows lr35902 .dummy rfl a hh).1
    rw [h1] at this
    rw [h2.1]; exact this
  · have hpost : tool.dialect.postLink = pure () := by cases tool <;> first | rfl | exact absurd rfl hg
    have := (C36_windows tool.dialect .dummy hpost a hh).1
    rw [h] at this
    exact this

/-- The bytes of a line are within the output. -/
theorem built_length (tool : Tool) {env : Env} {depth : Nat} {s'' : St} (h : BuiltLine tool.dialect env depth codes s t rest s' s'') {blob : Bytes} {rels : List Reloc}
    (hem : Emits tool.dialect (ctxOf tool.dialect s) t rest blob rels) : s.bytes.length + blob.length ≤ s''.bytes.length := by
  obtain ⟨s1, hv⟩ := h.visits
  obtain ⟨head, hd⟩ := sound_tool tool
  obtain ⟨-, -, hk⟩ := hv.asmRel (rel_kept tool.dialect head) (hd.kept env head (Nat.le_refl _))
  obtain ⟨n, tokens, ln, hrec, hsub, hmac, h1⟩ := hv.line_run
  obtain ⟨blob', rels', hem', hs1⟩ := (execInstr_emits tool.dialect n tokens ln s s1 hrec t rest hsub hmac).1 h1
  obtain ⟨rfl, rfl⟩ := Emits.unique hem hem'
  have hb : s1.bytes.length = s.bytes.length + blob.length := by rw [hs1]; simp [emitted]
  rw [link_length tool h.linked h.noText]
  have := hk.length
  omega

/-- C88: when a program that writes code succeeds, each of its lines is a line of the program that was built (so that C85 says
what is in its bytes), and the output file has these bytes, behind the header if there is one, unless they are the checksum of
the console. -/
theorem C88_file (hw : WritesCode tool) (h : tool.run m args disk = (.ok (), disk')) (ho : outputFile tool args = some out)
    (hl : FileLine tool m disk args codes s t rest s') :
    ∃ s'' file blob rels, BuiltLine tool.dialect (m.view disk) m.depth codes s t rest s' s'' ∧ disk' out = some file ∧
      Emits tool.dialect (ctxOf tool.dialect s) t rest blob rels ∧ s.bytes.length + blob.length ≤ s''.bytes.length ∧
      ∀ o n, o + n ≤ blob.length → (∀ i, o ≤ i → i < o + n → ¬ Patched tool (s.bytes.length + i)) →
        window file (codeStart tool + (s.bytes.length + o)) n = window s''.bytes (s.bytes.length + o) n := by
  obtain ⟨e, file, h1, h2, h3⟩ := tool_run hw h ho
  have hb := hl.built h1
  obtain ⟨s1, hv⟩ := hb.visits
  obtain ⟨n, tokens, ln, hrec, hsub, hmac, h4⟩ := hv.line_run
  obtain ⟨blob, rels, hem, -⟩ := (execInstr_emits tool.dialect n tokens ln s s1 hrec t rest hsub hmac).1 h4
  have hlen := built_length tool hb hem
  refine ⟨e, file, blob, rels, hb, h2, hem, hlen, fun o n hon hp => h3 _ _ (by omega) fun i hi1 hi2 => ?_⟩
  have := hp (i - s.bytes.length) (by omega) (by omega)
  rwa [show s.bytes.length + (i - s.bytes.length) = i by omega] at this

/-- The whole line. -/
theorem line_in_file (hw : WritesCode tool) (h : tool.run m args disk = (.ok (), disk')) (ho : outputFile tool args = some out)
    (hl : FileLine tool m disk args codes s t rest s') {blob : Bytes} {rels : List Reloc} (hem : Emits tool.dialect (ctxOf tool.dialect s) t rest blob rels)
    (hp : ∀ i, i < blob.length → ¬ Patched tool (s.bytes.length + i)) :
    ∃ s'' file, BuiltLine tool.dialect (m.view disk) m.depth codes s t rest s' s'' ∧ disk' out = some file ∧
      window file (codeStart tool + s.bytes.length) blob.length = window s''.bytes s.bytes.length blob.length := by
  obtain ⟨s'', file, blob', rels', h1, h2, h3, h4, h5⟩ := C88_file hw h ho hl
  obtain ⟨rfl, rfl⟩ := Emits.unique hem h3
  exact ⟨s'', file, h1, h2, h5 0 blob.length (by omega) fun i _ hi => hp i (by omega)⟩

/-! ## Consoles -/

variable {blob : Bytes} {rels : List Reloc}

/-- C88: a line of a Genesis program outside the checksum is in the file as it was written. -/
theorem C88_genesis (h : Tool.genesis.run m args disk = (.ok (), disk')) (ho : args[1]? = some out) (hl : FileLine .genesis m disk args codes s t rest s')
    (hem : Emits mc68000 (ctxOf mc68000 s) t rest blob rels) (hplain : ∀ r ∈ rels, r.label ≠ [] ∧ ∀ ch ∈ r.label, formulaChar ch = false)
    (hodd : ¬ M68Odd (m68Linked s s') t rest) (hp : s.bytes.length + blob.length ≤ 0x18E ∨ 0x190 ≤ s.bytes.length) :
    ∃ file used extra i, disk' out = some file ∧ rest = used ++ extra ∧ (extra ≠ [] → M68Open i) ∧ M68Written (m68Linked s s') t used i ∧
      disasm68 (window file s.bytes.length blob.length) = some i := by
  obtain ⟨s'', file, hb, h2, h3⟩ := line_in_file (tool := .genesis) trivial h ho hl hem (by intro i hi; simp only [Patched]; omega)
  obtain ⟨used, extra, i, e1, e2, e3, e4⟩ := C85_mc68000 hb hem hplain hodd
  rw [show codeStart .genesis = 0 from rfl, Nat.zero_add] at h3
  exact ⟨file, used, extra, i, h2, e1, e2, e3, by rw [h3]; exact e4⟩

/-- C88: a line of a Master System program is in the file as it was written. -/
theorem C88_sms (h : Tool.sms.run m args disk = (.ok (), disk')) (ho : args.getLast? = some out) (hl : FileLine .sms m disk args codes s t rest s')
    (hem : Emits (smsOn z80) (ctxOf (smsOn z80) s) t rest blob rels) (hplain : ∀ r ∈ rels, r.label ≠ [] ∧ ∀ ch ∈ r.label, formulaChar ch = false)
    (hodd : ¬ Z80Odd t rest) :
    ∃ file i, disk' out = some file ∧ decodeZ80 (window file s.bytes.length blob.length) = some i ∧ Z80Written (z80Linked s s') t rest i := by
  obtain ⟨s'', file, hb, h2, h3⟩ := line_in_file (tool := .sms) trivial h ho hl hem (fun _ _ => id)
  obtain ⟨i, e1, e2⟩ := C85_sms hb hem hplain hodd
  rw [show codeStart .sms = 0 from rfl, Nat.zero_add] at h3
  exact ⟨file, i, h2, by rw [h3]; exact e1, e2⟩

/-- C88: the boot ROM accepts a Game Boy file, and a line behind the header is in it as it was written. -/
theorem C88_gameboy (h : Tool.gameboy.run m args disk = (.ok (), disk')) (ho : args.getLast? = some out) (hl : FileLine .gameboy m disk args codes s t rest s')
    (hem : Emits (gameboyOn lr35902) (ctxOf (gameboyOn lr35902) s) t rest blob rels) (hplain : ∀ r ∈ rels, ∀ ch ∈ r.label, formulaChar ch = false)
    (hodd : ¬ GbOdd t rest) (hh : 0x150 ≤ s.bytes.length) :
    ∃ file i, disk' out = some file ∧ decodeGb (window file s.bytes.length blob.length) = some i ∧ GbWritten (gbLinked s s' i.args) t rest i := by
  obtain ⟨s'', file, hb, h2, h3⟩ := line_in_file (tool := .gameboy) trivial h ho hl hem (fun _ _ => id)
  obtain ⟨-, i, e1, e2⟩ := C85_gameboy hb hem hplain hodd hh
  rw [show codeStart .gameboy = 0 from rfl, Nat.zero_add] at h3
  exact ⟨file, i, h2, by rw [h3]; exact e1, e2⟩

/-- C88: a line without labels of a GBA program outside the complement byte is in the file as it was written. -/
theorem C88_gba (h : Tool.gba.run m args disk = (.ok (), disk')) (ho : args[1]? = some out) (hl : FileLine .gba m disk args codes s t rest s')
    (hem : Emits thumb (ctxOf thumb s) t rest blob []) (hbl : ¬ eqNoCase t "BL".toList) (hodd : ¬ ThOdd (OperandValue (ctxOf thumb s) []) t rest)
    (hp : s.bytes.length + 2 ≤ 0xBD ∨ 0xBE ≤ s.bytes.length) :
    ∃ file i, disk' out = some file ∧ decode16 (ofBytes false (window file s.bytes.length 2)) = some i ∧ ThWritten (OperandValue (ctxOf thumb s) []) t rest i := by
  obtain ⟨hlen, -⟩ := C61_decodes _ t rest blob [] hem hbl hodd
  obtain ⟨s'', file, hb, h2, h3⟩ := line_in_file (tool := .gba) trivial h ho hl hem (by intro i hi; simp only [Patched]; omega)
  obtain ⟨i, e1, e2⟩ := C85_thumb_plain hb hem hbl hodd
  rw [show codeStart .gba = 0 from rfl, Nat.zero_add, hlen] at h3
  exact ⟨file, i, h2, by rw [h3]; exact e1, e2⟩

/-- C88: a line without labels of a PlayStation program is in the file as it was written, 0x800 bytes further on. -/
theorem C88_psx (h : Tool.psx.run m args disk = (.ok (), disk')) (ho : args[1]? = some out) (hl : FileLine .psx m disk args codes s t rest s')
    (hem : Emits psx (ctxOf psx s) t rest blob []) (hodd : ∀ m ∈ mipsOdd, ¬ eqNoCase t m.toList) :
    ∃ file n i, disk' out = some file ∧ eqNoCase t (n : String).toList ∧ decodeMips (ofBytes false (window file (0x800 + s.bytes.length) 4)) = some i ∧
      MipsWritten (OperandValue (ctxOf psx s) []) n rest i := by
  obtain ⟨hlen, -⟩ := C55_decodes false _ t rest blob [] hem hodd
  obtain ⟨s'', file, hb, h2, h3⟩ := line_in_file (tool := .psx) trivial h ho hl hem (fun _ _ => id)
  obtain ⟨n, i, e1, e2, e3⟩ := C85_mips_plain false hb hem hodd
  rw [hlen] at h3
  exact ⟨file, n, i, h2, e1, by rw [show (0x800 : Nat) = codeStart .psx from rfl, h3]; exact e2, e3⟩

/-! ## Examples -/

/-- Three files; the output goes to a fourth. -/
def exFlMacros : String := ".macro put value\nLD A, value\nRET\n.endmacro\n"
def exFlMain : String := "start: .include \"part.asm\"\nJP start\n"
def exFlPart : String := "NOP\nput $12\n"

def exFlFiles : Disk := fun n =>
  if n = "macros.asm".toList then some (exFlMacros.toList.map fun c => BitVec.ofNat 8 c.toNat)
  else if n = "main.asm".toList then some (exFlMain.toList.map fun c => BitVec.ofNat 8 c.toNat)
  else if n = "part.asm".toList then some (exFlPart.toList.map fun c => BitVec.ofNat 8 c.toNat)
  else none

def exFlFileArgs : List Str := ["macros.asm".toList, "main.asm".toList, "a.sms".toList]

def exFlSix : Machine := { exMachine with depth := 6 }
def exFlEnv : Env := exFlSix.view exFlFiles

def exFlD : Dialect := smsOn z80
def exFlStep (n : Nat) (st : Stmt) : M Unit := execStmt exFlD exFlEnv n (assemble exFlD exFlEnv n) st
def exFlLine (tokens : List String) (line : Nat) : Stmt := ⟨.instr, tokens.map String.toList, line⟩
def exFlKey : Str := "PUT".toList
def exFlArg : List Str := ["$12".toList]
def exFlMac : Macro := ⟨["value".toList], [exFlLine ["LD", "A", "value"] 2, exFlLine ["RET"] 3]⟩
def exFlBody : List Str := ["LD", "A", "$12"].map String.toList

/-- The states on the way to the line. -/
def exFl1 : St := (forEach [exFlMacros.toList] (assemble exFlD exFlEnv 6) exFlD.init).2
def exFl2 : St := (forEach [⟨.label, ["start".toList], 1⟩] (exFlStep 5) exFl1).2
def exFl3 : St := (forEach [exFlLine ["NOP"] 1] (exFlStep 4) exFl2).2
def exFl4 : St := (setBodyTokens exFlKey 0 exFlBody exFl3).2
def exFl5 : St := (writeBack (some (exFlKey, 0)) exFlBody exFl4).2
/-- and behind it. -/
def exFl6 : St := (execInstr exFlD 3 none ⟨.instr, exFlBody, 2⟩ exFl5).2
def exFl7 : St := (setBodyTokens exFlKey 0 (["LD", "A", "value"].map String.toList) exFl6).2
def exFl8 : St := (forEach [1] (macroStep (execInstr exFlD 3) exFlKey ["value".toList] exFlArg) exFl7).2
def exFl9 : St := (execStmts exFlD exFlEnv 4 (assemble exFlD exFlEnv 4) [] exFl8).2
def exFl10 : St := (execStmts exFlD exFlEnv 5 (assemble exFlD exFlEnv 5) [exFlLine ["JP", "start"] 2] exFl9).2

theorem exFlVisits : Visits exFlD exFlEnv exFl5 "LD".toList (["A", "$12"].map String.toList) exFl6 6 (.sources [exFlMacros.toList, exFlMain.toList]) exFlD.init exFl10 := by
  refine .sources (pre := [exFlMacros.toList]) (post := []) (b := exFl1) (c := exFl10) (pair_ok (by decide +kernel)) ?_ rfl
  refine .source (pre := [⟨.label, ["start".toList], 1⟩]) (st := ⟨.directive, [".include".toList, "\"part.asm\"".toList], 1⟩) (post := [exFlLine ["JP", "start"] 2])
    (b := exFl2) (c := exFl9) (by decide +kernel) (pair_ok (by decide +kernel)) ?_ (pair_ok (by decide +kernel))
  refine .included (name := "\"part.asm\"".toList) (code := exFlPart.toList) (by unfold IsDirectiveToken; decide +kernel) rfl (by decide +kernel) (by decide +kernel) (by decide) ?_
  refine .source (pre := [exFlLine ["NOP"] 1]) (st := exFlLine ["put", "$12"] 2) (post := []) (b := exFl3) (c := exFl8)
    (by decide +kernel) (pair_ok (by decide +kernel)) ?_ (pair_ok (by decide +kernel))
  refine .instr ?_
  have hk : exFlD.key "put".toList = exFlKey := by decide +kernel
  refine .expanded (t0 := "put".toList) (args := exFlArg) (m := exFlMac) (m' := exFlMac) (pre := []) (post := [1]) (i := 0) (line := 2) (a' := exFl3) (b := exFl3) (c := exFl4) (e := exFl6) (f := exFl7)
    (body := ["LD", "A", "value"].map String.toList) (dict := [("value".toList, "$12".toList)]) (by decide +kernel) (by decide +kernel) (by decide +kernel) rfl (by decide +kernel)
    rfl (by decide +kernel) (by decide +kernel) (by decide +kernel) ?_ ?_ ?_ ?_
  · rw [hk]; exact pair_ok (by decide +kernel)
  · rw [hk]
    have hb : substituteWithDict (["LD", "A", "value"].map String.toList) [("value".toList, "$12".toList)] 0 = exFlBody := by decide +kernel
    rw [hb]
    exact .line (by decide +kernel) (by decide +kernel) (by decide +kernel) (pair_ok (by decide +kernel)) (pair_ok (by decide +kernel))
  · rw [hk]; exact pair_ok (by decide +kernel)
  · rw [hk]; exact pair_ok (by decide +kernel)

theorem exFlFileLine : FileLine .sms exFlSix exFlFiles exFlFileArgs [exFlMacros.toList, exFlMain.toList] exFl5 "LD".toList (["A", "$12"].map String.toList) exFl10 where
  read := by decide +kernel
  visits := ⟨exFl6, exFlVisits⟩
  noText := by decide +kernel

/-- A line of a macro that is defined in the first of two sources and used in a file the second one includes. -/
example : ∃ file i, (Tool.sms.run exFlSix exFlFileArgs exFlFiles).2 "a.sms".toList = some file ∧ decodeZ80 (window file 1 2) = some i ∧
    Z80Written (z80Linked exFl5 exFl10) "LD".toList (["A", "$12"].map String.toList) i := by
  have he : Emits (smsOn z80) (ctxOf (smsOn z80) exFl5) "LD".toList (["A", "$12"].map String.toList) [0x3E, 0x12] [] := .handler rfl (Prod.ext (by decide +kernel) rfl)
  have h := C88_sms (m := exFlSix) (disk := exFlFiles) (args := exFlFileArgs) (out := "a.sms".toList) (pair_ok (by decide +kernel)) (by decide +kernel) exFlFileLine he
    (by intro r hr; cases hr) (not_odd80 (by decide +kernel))
  rw [show exFl5.bytes.length = 1 by decide +kernel] at h
  exact h

/-- A line of a program with one source. -/
def exFlFirst (tool : Tool) (code : String) (pre : List Stmt) : St :=
  (forEach pre (execStmt tool.dialect ((exMachine).view (exDisk code)) 2 (assemble tool.dialect ((exMachine).view (exDisk code)) 2)) tool.dialect.init).2
def exFlLast (tool : Tool) (code : String) : St := (assemble tool.dialect ((exMachine).view (exDisk code)) 3 code.toList tool.dialect.init).2

theorem file_of {tool : Tool} {code : String} (pre : List Stmt) (tokens : List String) (ln : Nat) (post : List Stmt)
    (h0 : (sourceFiles tool exArgs).map ((exMachine).view (exDisk code)).text = [some code.toList])
    (h1 : tokenize code.toList = .ok (pre ++ ⟨.instr, tokens.map String.toList, ln⟩ :: post))
    (h2 : (forEach pre (execStmt tool.dialect ((exMachine).view (exDisk code)) 2 (assemble tool.dialect ((exMachine).view (exDisk code)) 2)) tool.dialect.init).1 = .ok ())
    (h3 : substituteWithDict (tokens.map String.toList) (exFlFirst tool code pre).defines 0 = t :: rest) (h4 : (exFlFirst tool code pre).recording = none)
    (h5 : (exFlFirst tool code pre).macros.lookup (tool.dialect.key t) = none)
    (h6 : (assemble tool.dialect ((exMachine).view (exDisk code)) 3 code.toList tool.dialect.init).1 = .ok ())
    (h7 : ∀ e ∈ (exFlLast tool code).relocs, e.2.hook = none) :
    FileLine tool exMachine (exDisk code) exArgs [code.toList] (exFlFirst tool code pre) t rest (exFlLast tool code) :=
  ⟨h0, visits_source (n := 1) h1 (pair_ok h2) h3 h4 h5 (pair_ok h6), h7⟩

def exFlGenesis : String := ".fill $200\nmove.w #1, d0\n"

example : ∃ file used extra i, (Tool.genesis.run exMachine exArgs (exDisk exFlGenesis)).2 "a.bin".toList = some file ∧
    ["#1", "d0"].map String.toList = used ++ extra ∧ (extra ≠ [] → M68Open i) ∧
    M68Written (m68Linked (exFlFirst .genesis exFlGenesis [exStmt .directive [".fill", "$200"] 1]) (exFlLast .genesis exFlGenesis)) "move.w".toList used i ∧
    disasm68 (window file 0x200 4) = some i := by
  have hl : FileLine .genesis exMachine (exDisk exFlGenesis) exArgs [exFlGenesis.toList] (exFlFirst .genesis exFlGenesis [exStmt .directive [".fill", "$200"] 1]) "move.w".toList
      (["#1", "d0"].map String.toList) (exFlLast .genesis exFlGenesis) :=
    file_of [exStmt .directive [".fill", "$200"] 1] ["move.w", "#1", "d0"] 2 [] (by decide +kernel) (by decide +kernel) (by decide +kernel) (by decide +kernel) (by decide +kernel) (by decide +kernel)
      (by decide +kernel) (by decide +kernel)
  have he : Emits mc68000 (ctxOf mc68000 (exFlFirst .genesis exFlGenesis [exStmt .directive [".fill", "$200"] 1])) "move.w".toList (["#1", "d0"].map String.toList) [0x30, 0x3C, 0, 1] [] :=
    .handler rfl (Prod.ext (by decide +kernel) rfl)
  have hn : (exFlFirst .genesis exFlGenesis [exStmt .directive [".fill", "$200"] 1]).bytes.length = 0x200 := by decide +kernel
  have h := C88_genesis (m := exMachine) (disk := exDisk exFlGenesis) (args := exArgs) (out := "a.bin".toList) (pair_ok (by decide +kernel)) (by decide +kernel) hl he
    (by intro r hr; cases hr) (not_odd_of_test (by decide +kernel)) (Or.inr (by rw [hn]; decide))
  rw [hn] at h
  exact h

def exFlPsx : String := "addiu $t0, $t1, 1\n"

example : ∃ file n i, (Tool.psx.run exMachine exArgs (exDisk exFlPsx)).2 "a.bin".toList = some file ∧ eqNoCase "addiu".toList (n : String).toList ∧
    decodeMips (ofBytes false (window file 0x800 4)) = some i ∧
    MipsWritten (OperandValue (ctxOf psx (exFlFirst .psx exFlPsx [])) []) n (["$t0", "$t1", "1"].map String.toList) i := by
  have hl : FileLine .psx exMachine (exDisk exFlPsx) exArgs [exFlPsx.toList] (exFlFirst .psx exFlPsx []) "addiu".toList (["$t0", "$t1", "1"].map String.toList) (exFlLast .psx exFlPsx) :=
    file_of [] ["addiu", "$t0", "$t1", "1"] 1 [] (by decide +kernel) (by decide +kernel) (by decide +kernel) (by decide +kernel) (by decide +kernel) (by decide +kernel)
      (by decide +kernel) (by decide +kernel)
  have he : Emits psx (ctxOf psx (exFlFirst .psx exFlPsx [])) "addiu".toList (["$t0", "$t1", "1"].map String.toList) [1, 0, 0x28, 0x25] [] := .handler rfl (Prod.ext (by decide +kernel) rfl)
  have h := C88_psx (m := exMachine) (disk := exDisk exFlPsx) (args := exArgs) (out := "a.bin".toList) (pair_ok (by decide +kernel)) (by decide +kernel) hl he (by decide +kernel)
  rw [show (exFlFirst .psx exFlPsx []).bytes.length = 0 by decide +kernel] at h
  exact h

def exFlGba : String := "MOV r0, #1\n.fill 0xC0\n"

example : ∃ file i, (Tool.gba.run exMachine exArgs (exDisk exFlGba)).2 "a.bin".toList = some file ∧ decode16 (ofBytes false (window file 0 2)) = some i ∧
    ThWritten (OperandValue (ctxOf thumb (exFlFirst .gba exFlGba [])) []) "MOV".toList (["r0", "#1"].map String.toList) i := by
  have hl : FileLine .gba exMachine (exDisk exFlGba) exArgs [exFlGba.toList] (exFlFirst .gba exFlGba []) "MOV".toList (["r0", "#1"].map String.toList) (exFlLast .gba exFlGba) :=
    file_of [] ["MOV", "r0", "#1"] 1 [exStmt .directive [".fill", "0xC0"] 2] (by decide +kernel) (by decide +kernel) (by decide +kernel) (by decide +kernel) (by decide +kernel) (by decide +kernel)
      (by decide +kernel) (by decide +kernel)
  have he : Emits thumb (ctxOf thumb (exFlFirst .gba exFlGba [])) "MOV".toList (["r0", "#1"].map String.toList) [1, 0x20] [] := .handler rfl (Prod.ext (by decide +kernel) rfl)
  have ho : ¬ ThOdd (OperandValue (ctxOf thumb (exFlFirst .gba exFlGba [])) []) "MOV".toList (["r0", "#1"].map String.toList) := by
    have no : ∀ m ∈ ["LDRB", "LDRH", "STR", "LSR", "ASR", "LDR", "PUSH"], ¬ eqNoCase "MOV".toList m.toList := by decide +kernel
    have nob : ∀ m ∈ TOp.B :: thCondNames, ¬ eqNoCase "MOV".toList m.name.toList := by decide +kernel
    intro h
    cases h with
    | addOffset _ he hn hr => cases he
    | ldrb h => exact no _ (by decide) h
    | ldrh h => exact no _ (by decide) h
    | str h => exact no _ (by decide) h
    | shift h => exact h.elim (no _ (by decide)) (no _ (by decide))
    | offset h => exact no _ (by decide) h
    | odd h => obtain ⟨n, hn, h⟩ := h; exact nob n hn h
    | push h => exact no _ (by decide) h
  have h := C88_gba (m := exMachine) (disk := exDisk exFlGba) (args := exArgs) (out := "a.bin".toList) (pair_ok (by decide +kernel)) (by decide +kernel) hl he (by decide) ho
    (Or.inl (by decide +kernel))
  rw [show (exFlFirst .gba exFlGba []).bytes.length = 0 by decide +kernel] at h
  exact h

def exFlGbOne : String := ".fill $150\nRET\n"

example : ∃ file i, (Tool.gameboy.run exMachine exArgs (exDisk exFlGbOne)).2 "a.bin".toList = some file ∧ decodeGb (window file 0x150 1) = some i ∧
    GbWritten (gbLinked (exFlFirst .gameboy exFlGbOne [exStmt .directive [".fill", "$150"] 1]) (exFlLast .gameboy exFlGbOne) i.args) "RET".toList [] i := by
  have hl : FileLine .gameboy exMachine (exDisk exFlGbOne) exArgs [exFlGbOne.toList] (exFlFirst .gameboy exFlGbOne [exStmt .directive [".fill", "$150"] 1]) "RET".toList [] (exFlLast .gameboy exFlGbOne) :=
    file_of [exStmt .directive [".fill", "$150"] 1] ["RET"] 2 [] (by decide +kernel) (by decide +kernel) (by decide +kernel) (by decide +kernel) (by decide +kernel) (by decide +kernel)
      (by decide +kernel) (by decide +kernel)
  have he : Emits (gameboyOn lr35902) (ctxOf (gameboyOn lr35902) (exFlFirst .gameboy exFlGbOne [exStmt .directive [".fill", "$150"] 1])) "RET".toList [] [0xC9] [] := .handler rfl (Prod.ext (by decide +kernel) rfl)
  have hn : (exFlFirst .gameboy exFlGbOne [exStmt .directive [".fill", "$150"] 1]).bytes.length = 0x150 := by decide +kernel
  have h := C88_gameboy (m := exMachine) (disk := exDisk exFlGbOne) (args := exArgs) (out := "a.bin".toList) (pair_ok (by decide +kernel)) (by decide +kernel) hl he
    (by intro r hr; cases hr) (gbOdd_test (by decide +kernel)) (by rw [hn]; decide)
  rw [hn] at h
  exact h

end Necro
