import Verif.Props.SymbolTable
import Verif.Lemmas.Registers
import Verif.Spec.References

/-!
Property C127: the references of a symbol.
-/

namespace H800

open Spec

variable {ν : Type}

theorem resolveLoop_symbols (passes : Nat) : ∀ (t : SymbolTable ν) (i prev n : Nat),
    (t.resolveLoop passes i prev n).1.symbols = t.symbols := by
  induction passes with
  | zero => intro t i prev n; rfl
  | succ passes ih =>
    intro t i prev n
    have hp : t.pruneUndefines.1.symbols = t.symbols := rfl
    rw [SymbolTable.resolveLoop]
    split
    · rfl
    · split
      · rename_i t' e h
        rw [h] at hp
        exact hp
      · rename_i t' u h
        rw [h] at hp
        split
        · exact hp
        · exact (ih t' _ _ _).trans hp

theorem refs_from (n : Str) (hn : n ≠ []) (calls : List (Call ν)) :
    ∀ (t : SymbolTable ν) (e : SymbolTableEntry ν),
      (calls.foldl Call.run t).lookup n = some e →
      e.references = ((t.lookup n).map (·.references)).getD [] ++
        refsSince n (t.lookup n).isSome calls := by
  induction calls with
  | nil =>
    intro t e h
    have h : t.lookup n = some e := h
    simp [h, refsSince]
  | cons c cs ih =>
    intro t e h
    rw [List.foldl_cons] at h
    rw [ih _ e h]
    have hsame : ∀ t' : SymbolTable ν, t'.symbols = t.symbols → t'.lookup n = t.lookup n := by
      intro t' h'
      simp only [SymbolTable.lookup, h']
    cases c with
    | update m v s =>
      rw [hsame (Call.run t (.update m v s)) (by rw [Call.run, (C66_update_partial t m v s).1])]
      rfl
    | prune => rw [hsame (Call.run t .prune) rfl]; rfl
    | resolve k =>
      rw [hsame (Call.run t (.resolve k)) (resolveLoop_symbols _ t _ _ _)]
      rfl
    | add a =>
      simp only [refsSince, Call.run, SymbolTable.add]
      by_cases h1 : a.name = []
      · rw [if_pos h1]
        have : a.name ≠ n := fun h2 => hn (h2 ▸ h1)
        simp [this]
      · rw [if_neg h1]
        by_cases h2 : (dget t.symbols a.name).isSome = true
        · rw [if_pos h2]
          by_cases h3 : a.name = n
          · have : (t.lookup n).isSome = true := by rw [← h3]; exact h2
            simp [this]
          · simp [h3]
        · rw [if_neg h2]
          by_cases h3 : a.name = n
          · subst h3
            have h4 : t.lookup a.name = none := by
              simpa [SymbolTable.lookup] using h2
            simp only [SymbolTable.lookup, dget_dset_self, Option.map_some, Option.getD_some,
              Option.isSome_some, decide_true, Bool.or_true]
            rw [show dget t.symbols a.name = none from h4]
            have : (SymbolTableEntry.init a.name a.value a.symtype a.file a.line a.segment
                a.subsegment).references = [] := by
              unfold SymbolTableEntry.init; split <;> rfl
            rw [this]; rfl
          · simp only [SymbolTable.lookup, dget_dset_ne _ _ _ _ h3, h3, decide_false,
              Bool.or_false]
    | ref m r =>
      simp only [refsSince, Call.run, SymbolTable.addReference]
      cases h1 : dget t.symbols m with
      | none =>
        simp only
        have : ¬ ((t.lookup n).isSome = true ∧ m = n) := by
          rintro ⟨h2, rfl⟩
          rw [SymbolTable.lookup, h1] at h2
          cases h2
        rw [if_neg this]
      | some e1 =>
        simp only
        by_cases h3 : m = n
        · subst h3
          simp only [SymbolTable.lookup, dget_dset_self, h1, Option.map_some, Option.getD_some,
            Option.isSome_some, SymbolTableEntry.addReference, and_self, if_true,
            List.append_assoc, List.singleton_append]
        · simp only [SymbolTable.lookup, dget_dset_ne _ _ _ _ h3, h3, and_false, if_false]

/-- C127: after any history of calls, the references of a symbol are exactly those added since its
definition, in order. -/
theorem C127_references (calls : List (Call ν)) (n : Str) (e : SymbolTableEntry ν)
    (h : (after calls).lookup n = some e) : e.references = refsSince n false calls := by
  have hn : n ≠ [] := by
    rintro rfl
    have h1 := (C62_first_wins calls).1 []
    revert h1
    split
    · rw [if_pos rfl, h]; intro h1; cases h1
    · rw [h]; intro h1; cases h1
  have := refs_from n hn calls SymbolTable.init e h
  exact this

/-- C127, the call itself: a reference to a symbol no `add` has named raises AttributeError and
changes nothing. -/
theorem C127_undefined (calls : List (Call ν)) (n r : Str) :
    ((after calls).addReference n r).2 =
      (if n ≠ [] ∧ ∃ a ∈ adds calls, a.name = n then .ok () else .error .attributeError) ∧
    ((¬ (n ≠ [] ∧ ∃ a ∈ adds calls, a.name = n)) →
      ((after calls).addReference n r).1 = after calls) := by
  have h1 := (C62_first_wins calls).1 n
  simp only [SymbolTable.addReference]
  have hl : (after calls).lookup n = dget (after calls).symbols n := rfl
  rw [hl] at h1
  have key : (n ≠ [] ∧ ∃ a ∈ adds calls, a.name = n) ↔
      ∃ e, dget (after calls).symbols n = some e := by
    revert h1
    split
    · rename_i a ha
      have ha1 := List.mem_of_find?_eq_some ha
      have ha2 : a.name = n := by simpa using List.find?_some ha
      split
      · rename_i hn
        intro h1
        rw [h1]
        simp [hn]
      · rename_i hn
        rintro ⟨e, h1, -⟩
        exact ⟨fun _ => ⟨e, h1⟩, fun _ => ⟨hn, a, ha1, ha2⟩⟩
    · rename_i ha
      intro h1
      rw [h1]
      rw [List.find?_eq_none] at ha
      refine ⟨?_, fun ⟨e, he⟩ => by cases he⟩
      rintro ⟨-, a, h2, h3⟩
      exact absurd (by simpa using h3) (ha a h2)
  cases h2 : dget (after calls).symbols n with
  | none =>
    have : ¬ (n ≠ [] ∧ ∃ a ∈ adds calls, a.name = n) := by
      rw [key, h2]; rintro ⟨e, he⟩; cases he
    rw [if_neg this]
    exact ⟨rfl, fun _ => rfl⟩
  | some e =>
    have : n ≠ [] ∧ ∃ a ∈ adds calls, a.name = n := by rw [key]; exact ⟨e, h2⟩
    rw [if_pos this]
    exact ⟨rfl, fun h => absurd this h⟩

/-- C127, an example: references before the definition are lost, the second definition changes
nothing. -/
example : let calls : List (Call Int) := [.ref (py "A") (py "1"),
      .add ⟨py "A", py "f", 1, none, none, none, none⟩, .ref (py "A") (py "2"), .resolve 3,
      .add ⟨py "A", py "g", 2, some 6, none, none, none⟩, .ref (py "B") (py "3"),
      .ref (py "A") (py "4")]
    ((after calls).lookup (py "A")).map (·.references) = some [py "2", py "4"] ∧
    refsSince (py "A") false calls = [py "2", py "4"] := by decide +kernel

end H800
