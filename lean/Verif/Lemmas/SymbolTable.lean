import Verif.Spec.SymbolTable
import Verif.Lemmas.Dict
import Verif.Lemmas.BitField

/-! Lemmas about `SymbolTable`. -/

namespace H800

open Spec

section
variable {κ ν : Type} [DecidableEq κ]

theorem dget_dset (d : Dict κ ν) (k k' : κ) (v : ν) :
    dget (dset d k v) k' = if k' = k then some v else dget d k' := by
  induction d with
  | nil =>
    simp only [dset, dget]
    by_cases h : k = k'
    · simp [h]
    · simp [h, Ne.symm h]
  | cons p d ih =>
    obtain ⟨k1, v1⟩ := p
    simp only [dset]
    by_cases h : k1 = k
    · subst h
      simp only [if_true, dget]
      by_cases h' : k1 = k'
      · simp [h']
      · simp [h', Ne.symm h']
    · rw [if_neg h]
      simp only [dget, ih]
      by_cases h' : k1 = k'
      · subst h'; simp [h]
      · simp [h']

theorem dset_new {d : Dict κ ν} {k : κ} (h : dget d k = none) (v : ν) :
    dset d k v = d ++ [(k, v)] := by
  induction d with
  | nil => rfl
  | cons p d ih =>
    obtain ⟨k1, v1⟩ := p
    simp only [dget] at h
    split at h
    · cases h
    · rename_i hk
      simp only [dset, if_neg hk, ih h, List.cons_append]

end

variable {ν : Type}

theorem init_valid (c : AddCall ν) :
    (SymbolTableEntry.init c.name c.value c.symtype c.file c.line c.segment c.subsegment).isValid =
      c.value.isSome := by
  unfold SymbolTableEntry.init SymbolTableEntry.isValid
  split <;> simp

/-- The names of entries without a value, in order. -/
def invalidNames (d : Dict Str (SymbolTableEntry ν)) : List Str :=
  (d.filter fun p => !p.2.isValid).map (·.1)

theorem invalidNames_ref (d : Dict Str (SymbolTableEntry ν)) (n r : Str) (e : SymbolTableEntry ν)
    (h : dget d n = some e) : invalidNames (dset d n (e.addReference r)) = invalidNames d := by
  unfold invalidNames
  induction d with
  | nil => cases h
  | cons p d ih =>
    obtain ⟨k, v⟩ := p
    simp only [dget] at h
    simp only [dset]
    split at h
    · rename_i hk
      cases h
      rw [if_pos hk]
      have : (e.addReference r).isValid = e.isValid := rfl
      simp only [List.filter_cons, this]
      split <;> simp
    · rename_i hk
      rw [if_neg hk]
      simp only [List.filter_cons]
      split
      · simp [ih h]
      · exact ih h

/-- The invariant of reachable tables. -/
structure TInv (t : SymbolTable ν) : Prop where
  nodup : (t.symbols.map (·.1)).Nodup
  undefs : t.undefs = invalidNames t.symbols

theorem TInv.entry {t : SymbolTable ν} (h : TInv t) : ∀ n ∈ t.undefs,
    ∃ e, dget t.symbols n = some e ∧ e.isValid = false := by
  intro n hn
  rw [h.undefs] at hn
  obtain ⟨p, hp, rfl⟩ := List.mem_map.1 hn
  obtain ⟨h1, h2⟩ := List.mem_filter.1 hp
  exact ⟨p.2, dget_of_mem h.nodup h1, by simpa using h2⟩

theorem pruneLoop_keep (d : Dict Str (SymbolTableEntry ν)) (l : List Str)
    (h : ∀ n ∈ l, ∃ e, dget d n = some e ∧ e.isValid = false) (i : Nat) :
    SymbolTable.pruneLoop d i l = (l, .ok ()) := by
  generalize hm : l.length - i = m
  induction m generalizing i with
  | zero => rw [SymbolTable.pruneLoop, dif_neg (by omega)]
  | succ m ih =>
    have hi : i < l.length := by omega
    obtain ⟨e, he, hv⟩ := h l[i] (List.getElem_mem hi)
    rw [SymbolTable.pruneLoop, dif_pos hi, he]
    simp only [hv]
    exact ih (i + 1) (by omega)

theorem TInv.prune {t : SymbolTable ν} (h : TInv t) : t.pruneUndefines = (t, .ok ()) := by
  unfold SymbolTable.pruneUndefines
  rw [pruneLoop_keep _ _ h.entry]

theorem TInv.resolve {t : SymbolTable ν} (h : TInv t) (m : Int) :
    t.resolve m = (t, .ok (),
      if m ≤ 0 then []
      else if t.undefs = [] then [.pass 0 0, .allResolved]
      else [.pass 0 t.undefs.length, .noProgress t.undefs.length]) := by
  unfold SymbolTable.resolve
  by_cases hm : m ≤ 0
  · have : m.toNat = 0 := by omega
    rw [this, if_pos hm]; rfl
  · obtain ⟨k, hk⟩ : ∃ k, m.toNat = k + 1 := ⟨m.toNat - 1, by omega⟩
    rw [hk, if_neg hm, SymbolTable.resolveLoop]
    by_cases hu : t.undefs = []
    · simp [hu]
    · have : t.undefs.length ≠ 0 := by simpa using hu
      rw [if_neg this, if_neg hu, h.prune]
      simp

/-- A call keeps the invariant and only `add` extends the table. -/
theorem TInv.run {t : SymbolTable ν} (h : TInv t) (c : Call ν) :
    TInv (c.run t) ∧ (c.run t).symbols.map (·.1) = t.symbols.map (·.1) ++
      (firsts (t.symbols.map (·.1)) (adds [c])).map (·.name) ∧
    (c.run t).undefs = t.undefs ++
      ((firsts (t.symbols.map (·.1)) (adds [c])).filter (·.value.isNone)).map (·.name) := by
  cases c with
  | add c =>
    simp only [Call.run, SymbolTable.add, adds, firsts]
    by_cases h1 : c.name = []
    · simp [h1, h]
    · rw [if_neg h1]
      by_cases h2 : (dget t.symbols c.name).isSome = true
      · rw [if_pos h2, if_pos (Or.inr (dget_isSome.1 h2))]
        simp [h]
      · have h3 : dget t.symbols c.name = none := by simpa using h2
        have h4 : c.name ∉ t.symbols.map (·.1) := dget_none.1 h3
        have h5 : ¬ (c.name = [] ∨ c.name ∈ t.symbols.map (·.1)) := by
          rintro (e | e); exacts [h1 e, h4 e]
        rw [if_neg h2, if_neg h5, dset_new h3]
        refine ⟨⟨?_, ?_⟩, by simp, ?_⟩
        · have := dset_nodup h.nodup c.name (SymbolTableEntry.init c.name c.value c.symtype c.file
            c.line c.segment c.subsegment)
          rw [dset_new h3] at this
          exact this
        · show (if c.value.isNone = true then t.undefs ++ [c.name] else t.undefs) = invalidNames _
          unfold invalidNames
          rw [List.filter_append, List.map_append, h.undefs]
          unfold invalidNames
          simp only [List.filter_cons, init_valid, List.filter_nil]
          cases c.value <;> simp
        · simp only [List.filter_cons, List.filter_nil]
          cases c.value <;> simp
  | ref n r =>
    simp only [Call.run, SymbolTable.addReference, adds, firsts, List.map_nil, List.append_nil,
      List.filter_nil]
    cases he : dget t.symbols n with
    | none => exact ⟨h, rfl, rfl⟩
    | some e =>
      refine ⟨⟨dset_nodup h.nodup _ _, ?_⟩, ?_, rfl⟩
      · simp only [invalidNames_ref t.symbols n r e he]; exact h.undefs
      · simp only
        rw [dset_keys, if_pos (dget_isSome.1 (by rw [he]; rfl))]
  | update n v s =>
    have : (t.update n v s).1 = t := by unfold SymbolTable.update; split <;> [rfl; split <;> rfl]
    simp only [Call.run, adds, firsts, this]
    simp [h]
  | prune => simp only [Call.run, h.prune, adds, firsts]; simp [h]
  | resolve m => simp only [Call.run, h.resolve, adds, firsts]; simp [h]

theorem adds_cons (c : Call ν) (cs : List (Call ν)) : adds (c :: cs) = adds [c] ++ adds cs := by
  cases c <;> simp [adds]

theorem firsts_append (seen : List Str) (a b : List (AddCall ν)) :
    firsts seen (a ++ b) = firsts seen a ++ firsts (seen ++ (firsts seen a).map (·.name)) b := by
  induction a generalizing seen with
  | nil => simp [firsts]
  | cons c a ih =>
    simp only [List.cons_append, firsts]
    split
    · exact ih seen
    · rw [ih]; simp

theorem run_all {t : SymbolTable ν} (h : TInv t) (cs : List (Call ν)) :
    TInv (cs.foldl Call.run t) ∧ (cs.foldl Call.run t).symbols.map (·.1) = t.symbols.map (·.1) ++
      (firsts (t.symbols.map (·.1)) (adds cs)).map (·.name) ∧
    (cs.foldl Call.run t).undefs = t.undefs ++
      ((firsts (t.symbols.map (·.1)) (adds cs)).filter (·.value.isNone)).map (·.name) := by
  induction cs generalizing t with
  | nil => simp [h, adds, firsts]
  | cons c cs ih =>
    obtain ⟨h1, h2, h3⟩ := h.run c
    obtain ⟨k1, k2, k3⟩ := ih h1
    rw [List.foldl_cons, adds_cons, firsts_append]
    refine ⟨k1, ?_, ?_⟩
    · rw [k2, h2]; simp
    · rw [k3, h3, h2]; simp

theorem tinv_init : TInv (SymbolTable.init : SymbolTable ν) := ⟨by simp [SymbolTable.init], rfl⟩

theorem tinv_after (cs : List (Call ν)) : TInv (after cs) := (run_all tinv_init cs).1

/-- Names of first calls are new, non-empty and distinct. -/
theorem firsts_names (seen : List Str) (cs : List (AddCall ν)) :
    ((firsts seen cs).map (·.name)).Nodup ∧
    ∀ n, n ∈ (firsts seen cs).map (·.name) ↔ n ≠ [] ∧ n ∉ seen ∧ ∃ c ∈ cs, c.name = n := by
  induction cs generalizing seen with
  | nil => simp [firsts]
  | cons c cs ih =>
    simp only [firsts]
    split
    · rename_i h
      obtain ⟨h1, h2⟩ := ih seen
      refine ⟨h1, fun n => ?_⟩
      rw [h2]
      constructor
      · rintro ⟨a, b, x, hx, e⟩; exact ⟨a, b, x, List.mem_cons_of_mem _ hx, e⟩
      · rintro ⟨a, b, x, hx, e⟩
        rcases List.mem_cons.1 hx with rfl | hx
        · subst e; rcases h with h | h
          · exact absurd h a
          · exact absurd h b
        · exact ⟨a, b, x, hx, e⟩
    · rename_i h
      obtain ⟨h1, h2⟩ := ih (seen ++ [c.name])
      refine ⟨?_, fun n => ?_⟩
      · rw [List.map_cons, List.nodup_cons]
        refine ⟨?_, h1⟩
        rw [h2]; simp
      · rw [List.map_cons, List.mem_cons, h2]
        simp only [not_or] at h
        constructor
        · rintro (rfl | ⟨a, b, x, hx, e⟩)
          · exact ⟨h.1, h.2, c, List.mem_cons_self, rfl⟩
          · exact ⟨a, fun hb => b (by simp [hb]), x, List.mem_cons_of_mem _ hx, e⟩
        · rintro ⟨a, b, x, hx, e⟩
          by_cases hn : n = c.name
          · exact Or.inl hn
          · rcases List.mem_cons.1 hx with rfl | hx
            · exact absurd e.symm hn
            · exact Or.inr ⟨a, by simp [b, hn], x, hx, e⟩

/-- Lookup after a call: what was there, apart from its references, or what is added. -/
theorem run_lookup {t : SymbolTable ν} (h : TInv t) (c : Call ν) (n : Str) :
    (∀ e, dget t.symbols n = some e → ∃ r, dget (c.run t).symbols n =
      some { e with references := r }) ∧
    (dget t.symbols n = none → dget (c.run t).symbols n =
      ((adds [c]).find? fun a => n ≠ [] ∧ a.name = n).map fun a =>
        SymbolTableEntry.init a.name a.value a.symtype a.file a.line a.segment a.subsegment) := by
  cases c with
  | add c =>
    simp only [Call.run, SymbolTable.add, adds, List.find?_cons, List.find?_nil]
    by_cases h1 : c.name = []
    · rw [if_pos h1]
      refine ⟨fun e he => ⟨_, he⟩, fun he => ?_⟩
      rw [he]
      by_cases hn : n = []
      · simp [hn]
      · simp [h1, Ne.symm hn]
    · rw [if_neg h1]
      by_cases h2 : (dget t.symbols c.name).isSome = true
      · rw [if_pos h2]
        refine ⟨fun e he => ⟨_, he⟩, fun he => ?_⟩
        have : ¬ c.name = n := by rintro rfl; rw [he] at h2; cases h2
        simp [he, this]
      · rw [if_neg h2]
        simp only [dget_dset]
        constructor
        · intro e he
          have : n ≠ c.name := by rintro rfl; rw [he] at h2; exact h2 rfl
          exact ⟨_, by rw [if_neg this]; exact he⟩
        · intro he
          by_cases hn : n = c.name
          · subst hn; simp [h1]
          · simp [hn, Ne.symm hn, he]
  | ref m r =>
    simp only [Call.run, SymbolTable.addReference, adds, List.find?_nil, Option.map_none]
    cases hm : dget t.symbols m with
    | none => exact ⟨fun e he => ⟨_, he⟩, id⟩
    | some e' =>
      simp only [dget_dset]
      constructor
      · intro e he
        by_cases hn : n = m
        · subst hn; rw [hm] at he; cases he; rw [if_pos rfl]; exact ⟨_, rfl⟩
        · rw [if_neg hn]; exact ⟨_, he⟩
      · intro he
        rw [if_neg (by rintro rfl; rw [hm] at he; cases he)]; exact he
  | update m v s =>
    have : (t.update m v s).1 = t := by unfold SymbolTable.update; split <;> [rfl; split <;> rfl]
    simp only [Call.run, this, adds, List.find?_nil, Option.map_none]
    exact ⟨fun e he => ⟨_, he⟩, id⟩
  | prune =>
    simp only [Call.run, h.prune, adds, List.find?_nil, Option.map_none]
    exact ⟨fun e he => ⟨_, he⟩, id⟩
  | resolve m =>
    simp only [Call.run, h.resolve, adds, List.find?_nil, Option.map_none]
    exact ⟨fun e he => ⟨_, he⟩, id⟩

theorem run_lookup_all {t : SymbolTable ν} (h : TInv t) (cs : List (Call ν)) (n : Str) :
    (∀ e, dget t.symbols n = some e → ∃ r, dget (cs.foldl Call.run t).symbols n =
      some { e with references := r }) ∧
    (dget t.symbols n = none →
      match (adds cs).find? fun a => n ≠ [] ∧ a.name = n with
      | none => dget (cs.foldl Call.run t).symbols n = none
      | some a => ∃ r, dget (cs.foldl Call.run t).symbols n =
        some { SymbolTableEntry.init a.name a.value a.symtype a.file a.line a.segment a.subsegment
          with references := r }) := by
  induction cs generalizing t with
  | nil => exact ⟨fun e he => ⟨_, he⟩, id⟩
  | cons c cs ih =>
    obtain ⟨h1, h2⟩ := run_lookup h c n
    obtain ⟨k1, k2⟩ := ih (h.run c).1
    rw [List.foldl_cons]
    constructor
    · intro e he
      obtain ⟨r, hr⟩ := h1 e he
      obtain ⟨r', hr'⟩ := k1 _ hr
      exact ⟨r', hr'⟩
    · intro he
      have hs := h2 he
      rw [adds_cons, List.find?_append]
      cases hf : (adds [c]).find? fun a => n ≠ [] ∧ a.name = n with
      | none =>
        rw [hf] at hs
        simp only [Option.none_or]
        exact k2 hs
      | some a =>
        rw [hf] at hs
        simp only [Option.some_or]
        obtain ⟨r, hr⟩ := k1 _ hs
        exact ⟨r, hr⟩

/-- The loop of `pruneUndefines`. -/
theorem pruneLoop_eq (d : Dict Str (SymbolTableEntry ν)) (l : List Str)
    (h : ∀ n ∈ l, ∃ e, dget d n = some e) (i : Nat) :
    SymbolTable.pruneLoop d i l = (l.take i ++ deletedWhileIterating
      (fun n => ((dget d n).map (·.isValid)).getD false) (l.drop i), .ok ()) := by
  generalize hm : l.length - i = m
  induction m using Nat.strong_induction_on generalizing i l with
  | _ m ih =>
    rw [SymbolTable.pruneLoop]
    by_cases hi : i < l.length
    · rw [dif_pos hi]
      obtain ⟨e, he⟩ := h l[i] (List.getElem_mem hi)
      rw [List.drop_eq_getElem_cons hi, he]
      simp only
      have htl : (l.take i).length = i := by simp; omega
      by_cases hv : e.isValid = true
      · rw [if_pos hv, ih _ _ (l.eraseIdx i)
          (fun n hn => h n (List.mem_of_mem_eraseIdx hn)) (i + 1) rfl]
        · rw [List.eraseIdx_eq_take_drop_succ]
          cases hr : l.drop (i + 1) with
          | nil =>
            rw [deletedWhileIterating]
            simp only [he, Option.map_some, hv, Option.getD_some, if_true, List.append_nil]
            rw [List.take_of_length_le (by omega), List.drop_of_length_le (by omega)]
            simp [deletedWhileIterating]
          | cons y r =>
            rw [deletedWhileIterating]
            simp only [he, Option.map_some, hv, Option.getD_some, if_true]
            rw [List.take_append, List.drop_append, htl, Nat.add_sub_cancel_left,
              List.take_of_length_le (by omega), List.drop_of_length_le (by omega)]
            simp
        · rw [List.length_eraseIdx, if_pos hi]; omega
      · rw [if_neg hv, ih _ (by omega) l h (i + 1) rfl]
        have hv' : e.isValid = false := by simpa using hv
        have ht : l.take (i + 1) = l.take i ++ [l[i]] := by
          rw [List.take_add_one, List.getElem?_eq_getElem hi]; rfl
        rw [ht, List.append_assoc]
        cases hr : l.drop (i + 1) with
        | nil => simp [deletedWhileIterating, he, hv']
        | cons y r =>
          conv_rhs => rw [deletedWhileIterating]
          simp [he, hv']
    · rw [dif_neg hi, List.take_of_length_le (by omega), List.drop_of_length_le (by omega)]
      simp [deletedWhileIterating]

/-- If no two neighbours satisfy `p`, every member satisfying it is deleted. -/
theorem deleted_isolated {α : Type} (p : α → Bool) (l : List α)
    (h : l.IsChain fun a b => ¬ (p a = true ∧ p b = true)) :
    deletedWhileIterating p l = l.filter fun x => !p x := by
  induction l using deletedWhileIterating.induct p with
  | case1 => rfl
  | case2 x hx => simp [deletedWhileIterating, hx]
  | case3 x hx => simp [deletedWhileIterating, hx]
  | case4 x y l hx ih =>
    rw [List.isChain_cons_cons] at h
    obtain ⟨h1, h2⟩ := h
    have hy : p y = false := by
      cases hp : p y with
      | false => rfl
      | true => exact absurd ⟨hx, hp⟩ h1
    rw [deletedWhileIterating, if_pos hx, ih h2.tail]
    simp [hx, hy]
  | case5 x y l hx ih =>
    rw [List.isChain_cons_cons] at h
    rw [deletedWhileIterating, if_neg hx, ih h.2]
    simp only [Bool.not_eq_true] at hx
    simp [hx]

theorem deleted_sublist {α : Type} (p : α → Bool) (l : List α) :
    (deletedWhileIterating p l).Sublist l := by
  induction l using deletedWhileIterating.induct p with
  | case1 => exact List.Sublist.refl _
  | case2 x hx => simp [deletedWhileIterating, hx]
  | case3 x hx => simp [deletedWhileIterating, hx]
  | case4 x y l hx ih =>
    rw [deletedWhileIterating, if_pos hx]
    exact (ih.cons_cons y).cons x
  | case5 x y l hx ih =>
    rw [deletedWhileIterating, if_neg hx]
    exact ih.cons_cons x

end H800
