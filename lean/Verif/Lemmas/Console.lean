import Verif.Props.Cartridge
import Verif.Lemmas.Owned
/-!
# Console assemblers: what they share with the assembler of their processor
-/

namespace Necro
open Spec
open M (throw get modify lift forEach)

/-! ## what later statements keep -/

theorem rel_kept (d : Dialect) (a : Nat) : AsmRel d (Kept a) where
  refl := fun s => ((rel_later d).refl s).kept a
  trans := fun h1 h2 => ⟨Nat.le_trans h1.length h2.length,
    fun i hi hl => by rw [h2.bytes i hi (Nat.lt_of_lt_of_le hl h1.length), h1.bytes i hi hl],
    fun i hi hl => by rw [h2.refs i hi (Nat.lt_of_lt_of_le hl h1.length), h1.refs i hi hl], h1.labels.trans h2.labels,
    fun h => h2.nodup (h1.nodup h)⟩
  append := fun s b => ((rel_later d).append s b).kept a
  reloc := fun s r => ((rel_later d).reloc s r).kept a
  macros := fun s m => ((rel_later d).macros s m).kept a
  recording := fun s m => ((rel_later d).recording s m).kept a
  rep := fun s m => ((rel_later d).rep s m).kept a
  log := fun s m => ((rel_later d).log s m).kept a
  defines := fun s m => ((rel_later d).defines s m).kept a
  exports := fun s m h => ((rel_later d).exports s m h).kept a
  pad := fun s b => ((rel_later d).pad s b).kept a
  org := fun s x y h1 h2 h3 => ((rel_later d).org s x y h1 h2 h3).kept a
  ram := fun s n h => ((rel_later d).ram s n h).kept a
  label := fun s k h1 h2 h3 h4 => ((rel_later d).label s k h1 h2 h3 h4).kept a
  closeSec := fun s n sec h1 h2 h3 => ((rel_later d).closeSec s n sec h1 h2 h3).kept a
  openSec := fun s n p h1 h2 h3 => ((rel_later d).openSec s n p h1 h2 h3).kept a

/-- Bytes appended, whatever happens to the rest of the layout. -/
theorem kept_pad (a : Nat) (s s' : St) (blob : Bytes) (h1 : s'.bytes = s.bytes ++ blob) (h2 : s'.relocs = s.relocs)
    (h3 : s'.labels = s.labels) : Kept a s s' :=
  Later.kept ⟨by rw [h1]; exact List.prefix_append _ _, fun i _ => by rw [h2], by rw [h3]; exact List.prefix_refl _, by rw [h2]; exact id⟩ a

theorem kept_changeOrg (d : Dialect) (a : Nat) (x y : Int) : Keeps (Kept a) (changeOrg d x y) := by
  intro s
  unfold changeOrg
  split
  · exact (rel_kept d a).refl s
  · simp only
    repeat' split
    all_goals first
      | exact kept_pad a _ _ [] (List.append_nil _).symm rfl rfl
      | exact kept_pad a _ _ _ rfl rfl rfl

theorem kept_writeAt (a : Nat) (blob : Bytes) : ∀ (x : Nat), x + blob.length ≤ a → Keeps (Kept a) (writeAt x blob) := by
  induction blob with
  | nil => intro x _ s; exact (rel_kept {} a).refl s
  | cons b blob ih =>
    intro x hx
    simp only [List.length_cons] at hx
    refine Keeps.bind (rel_kept {} a).toDataRel (f := fun _ => writeAt (x + 1) blob) ?_ (fun _ => ih _ (by omega))
    intro s
    unfold setByte
    split
    · refine ⟨by simp, fun i h1 _ => ?_, fun i _ _ => rfl, List.prefix_refl _, id⟩
      simp only
      rw [List.getElem?_set_ne (by omega)]
    · exact (rel_kept {} a).refl s

theorem kept_fill (d : Dialect) {a address size : Nat} (h : address + size ≤ a) (l : List Str) :
    Keeps (Kept a) (cartridgeFill d address size l) := by
  have hd := (rel_kept d a).toDataRel
  refine .bind hd (.get hd) fun s => ?_
  split
  · exact .throw hd _
  split
  · exact .throw hd _
  refine .bind hd ?_ fun blob => ?_
  · intro s
    have := (parseBytes_spec d (l.drop 1) s).1
    unfold headerBytes
    split
    · next e => rw [e] at this; rw [show _ = s from this]; exact hd.refl s
    · next e => rw [this]; exact hd.refl s
  split
  · exact .throw hd _
  · exact kept_writeAt a blob address (by omega)

theorem kept_tiles {R : St → St → Prop} (hd : DataRel R) (env : Env) (sizeOk : Nat → Nat → Bool) (cells : Image → Nat × Nat)
    (convert : Image → Nat → Nat → Except Err Bytes) (l : List Str) : Keeps R (tilesDirective env sizeOk cells convert l) := by
  unfold tilesDirective
  split
  · refine .bind hd (.readOnly hd (stringify_state _)) fun name => .bind hd ?_ fun img => ?_
    · intro s
      unfold openFile
      cases env.image name <;> exact hd.refl s
    split
    · exact .throw hd _
    split
    · exact .throw hd _
    exact .forEach hd fun cy _ => .forEach hd fun cx _ => .bind hd (.lift hd _) fun blob => .appendBytes hd blob
  · exact .throw hd _

theorem custom_class {d : Dialect} {l : List (String × (List Str → M Unit))} {R : St → St → Prop}
    (h : ∀ p ∈ l, ∀ ts, Keeps R (p.2 ts)) {key : Str} {f : List Str → M Unit} (hf : classDirectives d l key = some f) (ts : List Str) :
    Keeps R (f ts) := by
  have := mem_of_dget hf
  obtain ⟨p, hp, he⟩ := List.mem_map.1 this
  cases he
  exact h p hp ts

theorem gameboy_custom (base : Dialect) (env : Env) {a : Nat} (ha : 0x14B ≤ a) : CustomKeeps (gameboyOn base) env (Kept a) := by
  intro key f hf ts
  refine custom_class (d := base) (l := gameboyDirectives base env) (fun p hp ts => ?_) hf ts
  have hd := (rel_kept base a).toDataRel
  simp only [gameboyDirectives, List.mem_cons, List.not_mem_nil, or_false] at hp
  rcases hp with rfl | rfl | rfl | rfl | rfl | rfl | rfl | rfl
  · refine .bind hd (.get hd) fun s => ?_
    split
    · exact .throw hd _
    · exact .bind hd (kept_changeOrg base a _ _) fun _ => .bind hd (.appendBytes hd _) fun _ =>
        fun s => kept_pad a _ _ [] (List.append_nil _).symm rfl rfl
  · exact kept_fill base (by omega) ts
  · exact kept_fill base (by omega) ts
  · exact kept_fill base (by omega) ts
  · exact kept_fill base (by omega) ts
  · exact kept_fill base (by omega) ts
  · exact kept_fill base (by omega) ts
  · exact kept_tiles hd env _ _ _ ts

theorem nes_custom (env : Env) {a : Nat} (ha : 7 ≤ a) : CustomKeeps nes env (Kept a) := by
  intro key f hf ts
  refine custom_class (d := mos6502) (l := nesDirectives mos6502 env) (fun p hp ts => ?_) hf ts
  have hd := (rel_kept nes a).toDataRel
  simp only [nesDirectives, List.mem_cons, List.not_mem_nil, or_false] at hp
  rcases hp with rfl | rfl | rfl | rfl
  · refine .bind hd (.get hd) fun s => ?_
    split
    · exact .throw hd _
    · exact .bind hd (.appendBytes hd _) fun _ => fun s => kept_pad a _ _ [] (List.append_nil _).symm rfl rfl
  · exact kept_fill mos6502 (by omega) ts
  · exact kept_fill mos6502 (by omega) ts
  · exact kept_tiles hd env _ _ _ ts

theorem sms_custom (base : Dialect) (env : Env) {R : St → St → Prop} (hd : DataRel R) : CustomKeeps (smsOn base) env R := by
  intro key f hf ts
  refine custom_class (d := base) (l := [("tiles", smsTiles env)]) (fun p hp ts => ?_) hf ts
  cases List.mem_singleton.1 hp
  exact kept_tiles hd env _ _ _ ts

/-! ## the processor underneath -/

/-- `p` writes numbers, instructions and references as `d` does. -/
structure SameCpu (d p : Dialect) : Prop where
  sy : p.sy = d.sy
  instrs : p.instrs = d.instrs
  fold : p.caseSensitive = d.caseSensitive
  order : p.bigEndian = d.bigEndian

theorem SameCpu.key {d p : Dialect} (h : SameCpu d p) (t : Str) : p.key t = d.key t := by unfold Dialect.key; rw [h.fold]
theorem SameCpu.symm {d p : Dialect} (h : SameCpu d p) : SameCpu p d := ⟨h.sy.symm, h.instrs.symm, h.fold.symm, h.order.symm⟩

theorem SameCpu.ctx {d p : Dialect} (h : SameCpu d p) (s : St) : ctxOf p s = ctxOf d s := by unfold ctxOf; rw [h.sy]

theorem SameCpu.emits {d p : Dialect} (h : SameCpu d p) {s : St} {t : Str} {rest : List Str} {blob : Bytes} {rels : List Reloc}
    (he : Emits p (ctxOf p s) t rest blob rels) : Emits d (ctxOf d s) t rest blob rels := by
  rw [h.ctx] at he
  cases he with
  | fixed h1 h2 => exact .fixed (by rw [← h1, h.instrs, h.key]) h2
  | handler h1 h2 => exact .handler (by rw [← h1, h.instrs, h.key]) h2

theorem SameCpu.exec {d p : Dialect} (h : SameCpu d p) {depth ln : Nat} {tokens : List Str} {s s1 : St} {t : Str} {rest : List Str}
    (hrec : s.recording = none) (hsub : substituteWithDict tokens s.defines 0 = t :: rest) (hmac : s.macros.lookup (p.key t) = none)
    (hrun : execInstr p (depth + 1) none ⟨.instr, tokens, ln⟩ s = (.ok (), s1)) :
    execInstr d (depth + 1) none ⟨.instr, tokens, ln⟩ s = (.ok (), s1) := by
  obtain ⟨blob, rels, he, hs⟩ := (execInstr_emits p depth tokens ln s s1 hrec t rest hsub hmac).1 hrun
  exact (execInstr_emits d depth tokens ln s s1 hrec t rest hsub (by rw [← h.key]; exact hmac)).2 ⟨blob, rels, h.emits he, hs⟩

theorem SameCpu.program {d p : Dialect} (h : SameCpu d p) {s s' : St} {t : Str} {rest : List Str} (hp : InProgram p s t rest s') :
    InProgram d s t rest s' := by
  cases hp with
  | @mk depth ln tokens s1 hrec hsub hmac hrun hk =>
    exact .mk hrec hsub (by rw [← h.key]; exact hmac) (h.exec hrec hsub hmac hrun) hk

theorem SameCpu.resolve {d p : Dialect} (h : SameCpu d p) (k : LinkerKind) : resolveLabels p k = resolveLabels d k := by
  have h1 : resolveTarget p k = resolveTarget d k := by unfold resolveTarget; rw [h.sy]
  have h2 : writeField p = writeField d := by unfold writeField; rw [h.order]
  have h3 : resolveOne p k = resolveOne d k := by unfold resolveOne; rw [h1, h2]
  unfold resolveLabels
  rw [h3]

theorem same_gameboy (base : Dialect) : SameCpu base (gameboyOn base) := ⟨rfl, rfl, rfl, rfl⟩
theorem same_sms (base : Dialect) : SameCpu base (smsOn base) := ⟨rfl, rfl, rfl, rfl⟩
theorem same_nes : SameCpu mos6502 nes := ⟨rfl, rfl, rfl, rfl⟩

theorem link_of_resolve {d : Dialect} (hp : d.postLink = pure ()) {k : LinkerKind} {s s' : St} (h : resolveLabels d k s = (.ok (), s')) :
    link d k s = (.ok (), s') := by rw [link_resolve d k hp]; exact h

theorem link_unless {d : Dialect} {k : LinkerKind} {s s' : St} (h : link d k s = (.ok (), s')) :
    ∃ s1, resolveLabels d k s = (.ok (), s1) ∧ d.postLink s1 = (.ok (), s') := by
  have h : (resolveLabels d k >>= fun _ => d.postLink) s = _ := h
  rw [bind_eq] at h
  cases hr : resolveLabels d k s with
  | mk r s1 =>
    rw [hr] at h
    cases r with
    | error e => cases h
    | ok u => exact ⟨s1, rfl, h⟩

theorem window_outside {a b x n : Nat} {rom rom' : Bytes} (h : SameOutside a b rom rom') (hx : x + n ≤ a ∨ b < x) :
    window rom' x n = window rom x n := by
  apply List.ext_getElem?
  intro i
  simp only [window, List.getElem?_take, List.getElem?_drop]
  split
  · exact h.2 _ (by omega)
  · rfl

end Necro
