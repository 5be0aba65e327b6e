import Verif.Model.Py
/-! Lemmas about the association-list dictionaries. -/

namespace Necro

variable {κ ν : Type} [DecidableEq κ]

def dkeys (l : List (κ × ν)) : List κ := l.map Prod.fst

theorem dget_dset (l : List (κ × ν)) (k : κ) (v : ν) (n : κ) :
    dget (dset l k v) n = if k = n then some v else dget l n := by
  induction l with
  | nil => simp [dset, dget]
  | cons p l ih =>
    obtain ⟨k', v'⟩ := p
    by_cases hk : k' = k
    · subst hk
      simp only [dset, if_true, dget]
      split <;> rfl
    · simp only [dset, if_neg hk, dget, ih]
      by_cases h1 : k' = n
      · subst h1; simp [Ne.symm hk]
      · simp [h1]

theorem dget_dset_self (l : List (κ × ν)) (k : κ) (v : ν) : dget (dset l k v) k = some v := by
  simp [dget_dset]

theorem dget_dset_ne (l : List (κ × ν)) {k n : κ} (v : ν) (h : k ≠ n) : dget (dset l k v) n = dget l n := by
  simp [dget_dset, h]

theorem dget_isSome_iff (l : List (κ × ν)) (k : κ) : (dget l k).isSome = true ↔ k ∈ dkeys l := by
  induction l with
  | nil => simp [dget, dkeys]
  | cons p l ih =>
    obtain ⟨k', v'⟩ := p
    simp only [dget, dkeys, List.map_cons, List.mem_cons] at ih ⊢
    by_cases h : k' = k
    · simp [h]
    · simp [h, ih, Ne.symm h]

theorem dmem_iff (l : List (κ × ν)) (k : κ) : dmem l k = true ↔ k ∈ dkeys l := dget_isSome_iff l k

theorem dmem_false_iff (l : List (κ × ν)) (k : κ) : dmem l k = false ↔ k ∉ dkeys l := by
  rw [← dmem_iff]; simp

theorem dget_none_iff (l : List (κ × ν)) (k : κ) : dget l k = none ↔ k ∉ dkeys l := by
  rw [← dget_isSome_iff]; simp

theorem dset_new (l : List (κ × ν)) (k : κ) (v : ν) (h : k ∉ dkeys l) : dset l k v = l ++ [(k, v)] := by
  induction l with
  | nil => rfl
  | cons p l ih =>
    obtain ⟨k', v'⟩ := p
    simp [dkeys] at h
    have hk : k' ≠ k := fun e => h.1 e.symm
    simp only [dset, if_neg hk, List.cons_append]
    rw [ih (by simpa [dkeys] using h.2)]

theorem dkeys_dset_mem (l : List (κ × ν)) (k : κ) (v : ν) (h : k ∈ dkeys l) : dkeys (dset l k v) = dkeys l := by
  induction l with
  | nil => simp [dkeys] at h
  | cons p l ih =>
    obtain ⟨k', v'⟩ := p
    by_cases hk : k' = k
    · simp [dset, hk, dkeys]
    · simp only [dset, if_neg hk, dkeys, List.map_cons]
      have : k ∈ dkeys l := by
        simp [dkeys] at h ⊢
        rcases h with h | h
        · exact absurd h.symm hk
        · exact h
      have := ih this
      simp only [dkeys] at this
      rw [this]

theorem dkeys_dset (l : List (κ × ν)) (k : κ) (v : ν) :
    dkeys (dset l k v) = if k ∈ dkeys l then dkeys l else dkeys l ++ [k] := by
  split
  · exact dkeys_dset_mem l k v (by assumption)
  · rw [dset_new l k v (by assumption)]; simp [dkeys]

theorem dkeys_nodup_dset (l : List (κ × ν)) (k : κ) (v : ν) (h : (dkeys l).Nodup) : (dkeys (dset l k v)).Nodup := by
  rw [dkeys_dset]
  split
  · exact h
  · rename_i hk
    rw [List.nodup_append]
    refine ⟨h, by simp, ?_⟩
    intro a ha b hb
    simp at hb
    subst hb
    intro e; subst e; exact hk ha

theorem dset_dset (l : List (κ × ν)) (k : κ) (v w : ν) : dset (dset l k v) k w = dset l k w := by
  induction l with
  | nil => simp [dset]
  | cons p l ih =>
    obtain ⟨k', v'⟩ := p
    by_cases hk : k' = k
    · simp [dset, hk]
    · simp [dset, hk, ih]

theorem dset_same (l : List (κ × ν)) (k : κ) (v : ν) (h : dget l k = some v) : dset l k v = l := by
  induction l with
  | nil => simp [dget] at h
  | cons p l ih =>
    obtain ⟨k', v'⟩ := p
    by_cases hk : k' = k
    · simp [dget, hk] at h; simp [dset, hk, h]
    · simp [dget, hk] at h; simp [dset, hk, ih h]

theorem dset_length (l : List (κ × ν)) (k : κ) (v : ν) :
    (dset l k v).length = if k ∈ dkeys l then l.length else l.length + 1 := by
  have := congrArg List.length (dkeys_dset l k v)
  have e : ∀ m : List (κ × ν), (dkeys m).length = m.length := by simp [dkeys]
  rw [e] at this
  rw [this]
  split <;> simp [e]

theorem mem_of_dget {l : List (κ × ν)} {k : κ} {v : ν} (h : dget l k = some v) : (k, v) ∈ l := by
  induction l with
  | nil => simp [dget] at h
  | cons p l ih =>
    obtain ⟨k', v'⟩ := p
    by_cases hk : k' = k
    · simp [dget, hk] at h; simp [hk, h]
    · simp [dget, hk] at h; simp [ih h]

theorem dget_of_mem {l : List (κ × ν)} {k : κ} {v : ν} (hn : (dkeys l).Nodup) (h : (k, v) ∈ l) : dget l k = some v := by
  induction l with
  | nil => simp at h
  | cons p l ih =>
    obtain ⟨k', v'⟩ := p
    simp only [dkeys, List.map_cons, List.nodup_cons] at hn
    simp at h
    rcases h with ⟨rfl, rfl⟩ | h
    · simp [dget]
    · have : k' ≠ k := by
        intro e; subst e
        exact hn.1 (List.mem_map.2 ⟨_, h, rfl⟩)
      simp [dget, this, ih hn.2 h]

theorem dget_append (l l' : List (κ × ν)) (k : κ) :
    dget (l ++ l') k = (dget l k).or (dget l' k) := by
  induction l with
  | nil => simp [dget]
  | cons p l ih =>
    obtain ⟨k', v'⟩ := p
    by_cases hk : k' = k
    · simp [dget, hk]
    · simp [dget, hk, ih]

end Necro
