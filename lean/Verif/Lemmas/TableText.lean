import Verif.Model.TableText
import Verif.Spec.TableText
import Verif.Lemmas.Messages
import Verif.Lemmas.Repr
import Verif.Props.SymbolTable

/-! Lemmas on the lines that the methods of a symbol table print. -/

namespace H800
open Spec

variable {ν : Type}

theorem hex_ofDigits (ds : List Nat) (h : ∀ d ∈ ds, d < 16) : Hex (ds.map hexChar) (ofDigits 16 ds) := by
  induction ds using List.reverseRecOn with
  | nil => exact .nil
  | append_singleton ds d ih =>
    rw [List.map_append, ofDigits_append, Nat.mul_comm]
    exact .snoc (ih fun x hx => h x (List.mem_append_left _ hx)) (hexChar_spec d (h d (by simp)))

theorem digits_hex (n : Nat) : Hex ((digits 16 n).map hexChar) n := by
  obtain ⟨h1, h2, -⟩ := digits_spec 16 n (by omega)
  have := hex_ofDigits _ h2
  rwa [h1] at this

/-- The names deleted while the list is iterated over. -/
def goneWhile {α : Type} (p : α → Bool) : List α → List α
  | [] => []
  | [x] => if p x then [x] else []
  | x :: y :: l => if p x then x :: goneWhile p l else goneWhile p (y :: l)

theorem gone_perm {α : Type} (p : α → Bool) (l : List α) :
    l.Perm (goneWhile p l ++ deletedWhileIterating p l) := by
  induction l using goneWhile.induct p with
  | case1 => exact .refl _
  | case2 x hx => simp [goneWhile, deletedWhileIterating, hx]
  | case3 x hx => simp [goneWhile, deletedWhileIterating, hx]
  | case4 x y l hx ih =>
    simp only [goneWhile, deletedWhileIterating, hx, if_true, List.cons_append]
    exact .cons _ ((List.Perm.cons _ ih).trans List.perm_middle.symm)
  | case5 x y l hx ih =>
    have hx' : p x = false := by simpa using hx
    simp only [goneWhile, deletedWhileIterating, hx', Bool.false_eq_true, if_false]
    exact (List.Perm.cons _ ih).trans List.perm_middle.symm

theorem gone_sublist {α : Type} (p : α → Bool) (l : List α) : (goneWhile p l).Sublist l := by
  induction l using goneWhile.induct p with
  | case1 => exact .slnil
  | case2 x hx => simp [goneWhile, hx]
  | case3 x hx => simp [goneWhile, hx]
  | case4 x y l hx ih =>
    simp only [goneWhile, hx, if_true]
    exact (ih.cons _).cons_cons _
  | case5 x y l hx ih =>
    have hx' : p x = false := by simpa using hx
    simp only [goneWhile, hx', Bool.false_eq_true, if_false]
    exact ih.cons _

theorem gone_mem {α : Type} (p : α → Bool) (l : List α) : ∀ x ∈ goneWhile p l, p x = true := by
  induction l using goneWhile.induct p with
  | case1 => nofun
  | case2 x hx => simp [goneWhile, hx]
  | case3 x hx => simp [goneWhile, hx]
  | case4 x y l hx ih =>
    simp only [goneWhile, hx, if_true]
    intro z hz
    rcases List.mem_cons.1 hz with rfl | hz
    · exact hx
    · exact ih z hz
  | case5 x y l hx ih =>
    have hx' : p x = false := by simpa using hx
    simp only [goneWhile, hx', Bool.false_eq_true, if_false]
    exact ih

theorem gone_some {α : Type} (p : α → Bool) (l : List α) (h : ∃ x ∈ l, p x = true) :
    goneWhile p l ≠ [] := by
  induction l using goneWhile.induct p with
  | case1 => obtain ⟨x, hx, -⟩ := h; cases hx
  | case2 x hx => simp [goneWhile, hx]
  | case3 x hx => simp at h; exact absurd h hx
  | case4 x y l hx ih => simp [goneWhile, hx]
  | case5 x y l hx ih =>
    have hx' : p x = false := by simpa using hx
    simp only [goneWhile, hx', Bool.false_eq_true, if_false]
    refine ih ?_
    obtain ⟨z, hz, hp⟩ := h
    rcases List.mem_cons.1 hz with rfl | hz
    · exact absurd hp hx
    · exact ⟨z, hz, hp⟩

theorem pruneLoopLines_eq (d : Dict Str (SymbolTableEntry ν)) (l : List Str)
    (h : ∀ n ∈ l, ∃ e, dget d n = some e) (i : Nat) :
    SymbolTable.pruneLoopLines d i l =
      (goneWhile (fun n => ((dget d n).map (·.isValid)).getD false) (l.drop i)).map
        fun n => py "Removing " ++ n ++ py " from undefined symbols list" := by
  generalize hm : l.length - i = m
  induction m using Nat.strong_induction_on generalizing i l with
  | _ m ih =>
    rw [SymbolTable.pruneLoopLines]
    by_cases hi : i < l.length
    · rw [dif_pos hi]
      obtain ⟨e, he⟩ := h l[i] (List.getElem_mem hi)
      rw [List.drop_eq_getElem_cons hi, he]
      simp only
      have htl : (l.take i).length = i := by simp; omega
      by_cases hv : e.isValid = true
      · rw [if_pos hv, ih _ _ (l.eraseIdx i)
          (fun n hn => h n (List.mem_of_mem_eraseIdx hn)) (i + 1) rfl]
        · rw [List.eraseIdx_eq_take_drop_succ]
          cases hr : l.drop (i + 1) with
          | nil =>
            rw [goneWhile]
            simp only [he, Option.map_some, hv, Option.getD_some, if_true, List.append_nil]
            rw [List.drop_of_length_le (by omega)]
            simp [goneWhile]
          | cons y r =>
            rw [goneWhile]
            simp only [he, Option.map_some, hv, Option.getD_some, if_true]
            rw [List.drop_append, htl, Nat.add_sub_cancel_left, List.drop_of_length_le (by omega)]
            simp
        · rw [List.length_eraseIdx, if_pos hi]; omega
      · rw [if_neg hv, ih _ (by omega) l h (i + 1) rfl]
        have hv' : e.isValid = false := by simpa using hv
        cases hr : l.drop (i + 1) with
        | nil => simp [goneWhile, he, hv']
        | cons y r =>
          conv_rhs => rw [goneWhile]
          simp [he, hv']
    · rw [dif_neg hi, List.drop_of_length_le (by omega)]
      simp [goneWhile]

end H800
