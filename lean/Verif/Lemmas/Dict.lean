import Verif.Py

/-! Dictionaries. -/

namespace H800

section
variable {κ ν : Type} [DecidableEq κ]

theorem dget_mem {d : Dict κ ν} {k : κ} {v : ν} (h : dget d k = some v) : (k, v) ∈ d := by
  induction d with
  | nil => simp [dget] at h
  | cons p d ih =>
    obtain ⟨k', v'⟩ := p
    unfold dget at h
    split at h
    · rename_i hk; simp_all
    · exact List.mem_cons_of_mem _ (ih h)

theorem dget_none {d : Dict κ ν} {k : κ} : dget d k = none ↔ k ∉ d.map (·.1) := by
  induction d with
  | nil => simp [dget]
  | cons p d ih =>
    obtain ⟨k', v'⟩ := p
    unfold dget
    by_cases hk : k' = k
    · simp [hk]
    · simp only [hk, if_false, ih, List.map_cons, List.mem_cons, not_or]
      exact ⟨fun h => ⟨fun e => hk e.symm, h⟩, fun h => h.2⟩

theorem dget_isSome {d : Dict κ ν} {k : κ} : (dget d k).isSome ↔ k ∈ d.map (·.1) := by
  rw [← Decidable.not_iff_not, ← dget_none]
  cases dget d k <;> simp

theorem dget_of_mem {d : Dict κ ν} (hn : (d.map (·.1)).Nodup) {k : κ} {v : ν} (h : (k, v) ∈ d) :
    dget d k = some v := by
  induction d with
  | nil => simp at h
  | cons p d ih =>
    obtain ⟨k', v'⟩ := p
    simp only [List.map_cons, List.nodup_cons] at hn
    unfold dget
    rcases List.mem_cons.1 h with e | h
    · cases e; simp
    · rw [if_neg]
      · exact ih hn.2 h
      · intro e; subst e; exact hn.1 (List.mem_map.2 ⟨_, h, rfl⟩)

theorem dget_iff_mem {d : Dict κ ν} (hn : (d.map (·.1)).Nodup) {k : κ} {v : ν} :
    dget d k = some v ↔ (k, v) ∈ d := ⟨dget_mem, dget_of_mem hn⟩

theorem dset_keys (d : Dict κ ν) (k : κ) (v : ν) :
    (dset d k v).map (·.1) = if k ∈ d.map (·.1) then d.map (·.1) else d.map (·.1) ++ [k] := by
  induction d with
  | nil => simp [dset]
  | cons p d ih =>
    obtain ⟨k', v'⟩ := p
    unfold dset
    by_cases hk : k' = k
    · simp [hk]
    · have hk' : ¬ k = k' := fun e => hk e.symm
      simp only [hk, if_false, List.map_cons, ih, List.mem_cons, hk', false_or]
      split <;> simp

theorem dset_mem_keys (d : Dict κ ν) (k k' : κ) (v : ν) :
    k' ∈ (dset d k v).map (·.1) ↔ k' = k ∨ k' ∈ d.map (·.1) := by
  rw [dset_keys]
  split
  · constructor
    · exact Or.inr
    · rintro (rfl | h) <;> assumption
  · simp [or_comm]

theorem dset_nodup {d : Dict κ ν} (h : (d.map (·.1)).Nodup) (k : κ) (v : ν) :
    ((dset d k v).map (·.1)).Nodup := by
  rw [dset_keys]
  split
  · exact h
  · rename_i hk
    rw [List.nodup_append]
    refine ⟨h, by simp, ?_⟩
    intro a ha b hb e
    simp only [List.mem_singleton] at hb
    subst hb; subst e; exact hk ha

end

end H800
