import Verif.Lemmas.Compose
import Verif.Lemmas.ReportMac
/-!
# The directives of the platforms and linking use neither the macro nor the section table
-/

namespace Necro
open Spec
open M (throw get modify lift forEach times)

theorem frame_setByte (i : Nat) (b : Byte) : Frame (setByte i b) := by
  refine ⟨fun s x y => ?_⟩
  unfold setByte
  by_cases h : i < s.bytes.length
  · rw [if_pos (show i < (put x y s).bytes.length from h), if_pos h]; rfl
  · rw [if_neg (show ¬ i < (put x y s).bytes.length from h), if_neg h]

theorem frame_orByte (i : Nat) (b : Byte) : Frame (orByte i b) := by
  refine ⟨fun s x y => ?_⟩
  unfold orByte
  by_cases h : i < s.bytes.length
  · rw [if_pos (show i < (put x y s).bytes.length from h), if_pos h]; rfl
  · rw [if_neg (show ¬ i < (put x y s).bytes.length from h), if_neg h]

theorem frame_readByte (i : Nat) : Frame (readByte i) := by
  refine ⟨fun s x y => ?_⟩
  unfold readByte
  have e : (put x y s).bytes = s.bytes := rfl
  rw [e]
  cases s.bytes[i]? <;> rfl

theorem frame_writeAt : ∀ (bs : Bytes) (i : Nat), Frame (writeAt i bs)
  | [], _ => .pure ()
  | b :: bs, i => .bind (frame_setByte i b) fun _ => frame_writeAt bs (i + 1)

theorem frame_parseBytes (d : Dialect) : ∀ l, Frame (parseBytesOrAscii d l)
  | [] => .pure _
  | t :: l => by
    refine .bind (frame_firstChar t) fun c => .bind (.ite (.lift _) (.bind (frame_parseIntegerM ..) fun v => ?_)) fun b => .bind (frame_parseBytes d l) fun r => .pure _
    cases v with
    | none => exact .throw _
    | some v => exact .lift _

theorem frame_headerBytes (d : Dialect) (l : List Str) : Frame (headerBytes d l) := by
  refine ⟨fun s x y => ?_⟩
  unfold headerBytes
  rw [(frame_parseBytes d l).eq s x y]
  rcases parseBytesOrAscii d l s with ⟨e | r, s'⟩
  · cases e <;> rfl
  · rfl

theorem frame_cartridgeFill (d : Dialect) (a n : Nat) (l : List Str) : Frame (cartridgeFill d a n l) := by
  refine .getBind (fun _ _ _ => rfl) fun s => ?_
  exact .ite (.throw _) (.ite (.throw _) (.bind (frame_headerBytes d _) fun b => .ite (.throw _) (frame_writeAt _ _)))

theorem frame_tiles (env : Env) (sizeOk : Nat → Nat → Bool) (cells : Image → Nat × Nat) (convert : Image → Nat → Nat → Except Err Bytes) (l : List Str) :
    Frame (tilesDirective env sizeOk cells convert l) := by
  unfold tilesDirective
  split
  · exact .bind (frame_stringify _) fun n => .bind (frame_openFile _) fun img => .ite (.throw _) (.ite (.throw _)
      (.forEach fun _ _ => .forEach fun _ _ => .bind (.lift _) fun b => frame_appendBytes b))
  · exact .throw _

theorem frame_class {d : Dialect} {l : List (String × (List Str → M Unit))} (h : ∀ p ∈ l, ∀ ts, Frame (p.2 ts)) {key : Str} {f : List Str → M Unit}
    (hf : classDirectives d l key = some f) (ts : List Str) : Frame (f ts) := by
  obtain ⟨p, hp, he⟩ := List.mem_map.1 (mem_of_dget hf)
  cases he
  exact h p hp ts

/-- The directives an assembler class adds use neither table. -/
def CustomFrame (d : Dialect) (env : Env) : Prop := ∀ key f, d.directives env key = some f → ∀ l, Frame (f l)

theorem frame_gameboy (base : Dialect) (env : Env) : CustomFrame (gameboyOn base) env := by
  intro key f hf ts
  refine frame_class (d := base) (l := gameboyDirectives base env) (fun p hp ts => ?_) hf ts
  simp only [gameboyDirectives, List.mem_cons, List.not_mem_nil, or_false] at hp
  rcases hp with rfl | rfl | rfl | rfl | rfl | rfl | rfl | rfl
  · refine .getBind (fun _ _ _ => rfl) fun s => ?_
    exact .ite (.throw _) (.bind (frame_changeOrg base _ _) fun _ => .bind (frame_appendBytes _) fun _ => .modify fun _ _ _ => rfl)
  · exact frame_cartridgeFill base _ _ ts
  · exact frame_cartridgeFill base _ _ ts
  · exact frame_cartridgeFill base _ _ ts
  · exact frame_cartridgeFill base _ _ ts
  · exact frame_cartridgeFill base _ _ ts
  · exact frame_cartridgeFill base _ _ ts
  · exact (frame_tiles env _ _ _ ts : Frame (gameboyTiles env ts))

theorem frame_nes (env : Env) : CustomFrame nes env := by
  intro key f hf ts
  refine frame_class (d := mos6502) (l := nesDirectives mos6502 env) (fun p hp ts => ?_) hf ts
  simp only [nesDirectives, List.mem_cons, List.not_mem_nil, or_false] at hp
  rcases hp with rfl | rfl | rfl | rfl
  · refine .getBind (fun _ _ _ => rfl) fun s => ?_
    exact .ite (.throw _) (.bind (frame_appendBytes _) fun _ => .modify fun _ _ _ => rfl)
  · exact frame_cartridgeFill mos6502 _ _ ts
  · exact frame_cartridgeFill mos6502 _ _ ts
  · exact (frame_tiles env _ _ _ ts : Frame (nesPatternTable env ts))

theorem frame_x86 (env : Env) : CustomFrame x86 env := by
  intro key f hf ts
  simp only [x86] at hf
  split at hf
  · cases hf
    unfold x86Bits
    split
    · refine .bind (frame_parseIntegerM ..) fun v => ?_
      cases v with
      | none => exact .throw _
      | some v => exact .ite (.modify fun _ _ _ => rfl) (.throw _)
    · exact .throw _
  · cases hf

theorem frame_sms (base : Dialect) (env : Env) : CustomFrame (smsOn base) env := by
  intro key f hf ts
  refine frame_class (d := base) (l := [("tiles", smsTiles env)]) (fun p hp ts => ?_) hf ts
  cases List.mem_singleton.1 hp
  exact (frame_tiles env _ _ _ ts : Frame (smsTiles env ts))

theorem frame_noCustom {d : Dialect} {env : Env} (h : ∀ key, d.directives env key = none) : CustomFrame d env := by
  intro key f hf
  rw [h] at hf
  cases hf

theorem frame_tool (tool : Tool) (env : Env) : CustomFrame tool.dialect env := by
  cases tool <;> first
    | exact frame_noCustom fun _ => rfl
    | exact frame_x86 env
    | exact frame_gameboy _ env
    | exact frame_nes env
    | exact frame_sms _ env

/-! ## the open section -/

theorem cur_writeAt : ∀ (bs : Bytes) (i : Nat), Keeps SameCur (writeAt i bs)
  | [], _ => fun _ => rfl
  | b :: bs, i => by
    refine Keeps.bind rel_sameCur.toDataRel (f := fun _ => writeAt (i + 1) bs) (fun s => ?_) fun _ => cur_writeAt bs (i + 1)
    unfold setByte
    split <;> rfl

theorem cur_fill (d : Dialect) (address size : Nat) (l : List Str) : Keeps SameCur (cartridgeFill d address size l) := by
  have hd := rel_sameCur.toDataRel
  refine .bind hd (.get hd) fun s => ?_
  split
  · exact .throw hd _
  split
  · exact .throw hd _
  refine .bind hd ?_ fun bs => ?_
  · intro s
    have := (parseBytes_spec d (l.drop 1) s).1
    unfold headerBytes
    split
    · next e => rw [e] at this; rw [show _ = s from this]; exact hd.refl s
    · next e => rw [this]; exact hd.refl s
  split
  · exact .throw hd _
  · exact cur_writeAt bs address

theorem cur_gameboy (base : Dialect) (env : Env) : CustomKeeps (gameboyOn base) env SameCur := by
  intro key f hf ts
  refine custom_class (d := base) (l := gameboyDirectives base env) (fun p hp ts => ?_) hf ts
  have hd := rel_sameCur.toDataRel
  simp only [gameboyDirectives, List.mem_cons, List.not_mem_nil, or_false] at hp
  rcases hp with rfl | rfl | rfl | rfl | rfl | rfl | rfl | rfl
  · refine .bind hd (.get hd) fun s => ?_
    split
    · exact .throw hd _
    · exact .bind hd (cur_changeOrg base _ _) fun _ => .bind hd (.appendBytes hd _) fun _ => fun s => rfl
  · exact cur_fill base _ _ ts
  · exact cur_fill base _ _ ts
  · exact cur_fill base _ _ ts
  · exact cur_fill base _ _ ts
  · exact cur_fill base _ _ ts
  · exact cur_fill base _ _ ts
  · exact kept_tiles hd env _ _ _ ts

theorem cur_nes (env : Env) : CustomKeeps nes env SameCur := by
  intro key f hf ts
  refine custom_class (d := mos6502) (l := nesDirectives mos6502 env) (fun p hp ts => ?_) hf ts
  have hd := rel_sameCur.toDataRel
  simp only [nesDirectives, List.mem_cons, List.not_mem_nil, or_false] at hp
  rcases hp with rfl | rfl | rfl | rfl
  · refine .bind hd (.get hd) fun s => ?_
    split
    · exact .throw hd _
    · exact .bind hd (.appendBytes hd _) fun _ => fun s => rfl
  · exact cur_fill mos6502 _ _ ts
  · exact cur_fill mos6502 _ _ ts
  · exact kept_tiles hd env _ _ _ ts

theorem cur_x86 (env : Env) : CustomKeeps x86 env SameCur := by
  have hd := rel_sameCur.toDataRel
  intro key f hf ts
  simp only [x86] at hf
  split at hf
  · cases hf
    unfold x86Bits
    split
    · refine .bind hd (.readOnly hd (parseIntegerM_state _ _ _ _)) fun v => ?_
      split
      · split
        · exact fun s => rfl
        · exact .throw hd _
      · exact .throw hd _
    · exact .throw hd _
  · cases hf

theorem cur_tool (tool : Tool) (env : Env) : CustomKeeps tool.dialect env SameCur := by
  cases tool <;> first
    | exact noCustom (fun _ => rfl) _
    | exact cur_x86 env
    | exact cur_gameboy _ env
    | exact cur_nes env
    | exact sms_custom _ env rel_sameCur.toDataRel

/-- The directives of every program treat states that behave alike alike. -/
theorem resp_tool (tool : Tool) (env : Env) : CustomResp tool.dialect env :=
  fun key f hf l => resp_frame (frame_tool tool env key f hf l) (cur_tool tool env key f hf l)

/-! ## linking -/

theorem frame_writeField (d : Dialect) (a n : Nat) (v : Int) : Frame (writeField d a n v) :=
  .forEach fun _ _ => .ite (frame_orByte _ _) (frame_orByte _ _)

theorem frame_resolveOne (d : Dialect) (k : LinkerKind) (e : Nat × Reloc) : Frame (resolveOne d k e) := by
  refine .getBind (fun _ _ _ => rfl) fun s => .bind (.lift _) fun p => ?_
  cases e.2.hook with
  | some w => exact .bind (.lift _) fun b => frame_writeAt _ _
  | none => exact .bind (.lift _) fun v => frame_writeField ..

theorem frame_resolveLabels (d : Dialect) (k : LinkerKind) : Frame (resolveLabels d k) :=
  .getBind (fun _ _ _ => rfl) fun _ => .forEach fun e _ => frame_resolveOne d k e

theorem frame_headerLoop : ∀ l acc, Frame (headerLoop l acc)
  | [], _ => .pure _
  | i :: l, _ => .bind (frame_readByte i) fun _ => frame_headerLoop l _

theorem frame_gameboyFix : Frame gameboyFix :=
  .bind (frame_headerLoop _ _) fun _ => .bind (frame_setByte _ _) fun _ => .getBind (fun _ _ _ => rfl) fun _ => .bind (frame_setByte _ _) fun _ => frame_setByte _ _

theorem frame_link (tool : Tool) (k : LinkerKind) : Frame (link tool.dialect k) := by
  refine .bind (frame_resolveLabels _ _) fun _ => ?_
  cases tool <;> first
    | exact .pure ()
    | exact frame_gameboyFix

end Necro
