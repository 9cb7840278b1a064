import Verif.Lemmas.Listing
import Verif.Spec.OpcodesTxt

/-!
The committed file `opcodes.txt`: its lines are distinct listed codes in increasing order, as many as
the listing has.
-/

namespace H800

open Spec

/-- The code on a line `0oNNNN MNEM`. -/
def txtCode (l : Str) : Int :=
  ((l.drop 2).take 4).foldl (fun acc c => acc * 8 + (c.toNat - 48)) 0

/-- The mnemonic on a line `0oNNNN MNEM`. -/
def txtMnemonic (l : Str) : Str := l.drop 7

/-- A code matches a row of the opcode table. -/
def rowMatches (m : Str) (v : Int) : Bool :=
  (dget OPCODES m).any fun o => (listingForms m o).any fun f =>
    decide (f.code (o.b23.getD 0) (o.b7.getD 0) o.op = v)

theorem txt_increasing : (opcodesTxt.map txtCode).IsChain (· < ·) := by decide +kernel

theorem txt_rows : ∀ l ∈ opcodesTxt, rowMatches (txtMnemonic l) (txtCode l) := by decide +kernel

theorem txt_lines : ∀ l ∈ opcodesTxt, listingLine (txtCode l, txtMnemonic l) = l := by
  decide +kernel

theorem forms_count :
    (OPCODES.map fun p => (listingForms p.1 p.2).length).sum = opcodesTxt.length := by
  decide +kernel

theorem pairs_length : listingPairs.length = opcodesTxt.length := by
  rw [← forms_count]
  unfold listingPairs
  rw [List.length_flatMap]
  refine congrArg List.sum (List.map_congr_left fun p _ => ?_)
  rw [List.length_map, (pySortedInt_perm _).length_eq]
  exact List.length_map _

/-- The pairs printed on the lines of the file. -/
def txtPairs : List (Int × Str) := opcodesTxt.map fun l => (txtCode l, txtMnemonic l)

theorem txtPairs_strict : txtPairs.Pairwise (fun p q => p.1 < q.1) := by
  have h := List.isChain_iff_pairwise.1 txt_increasing
  unfold txtPairs
  rw [List.pairwise_map] at h ⊢
  exact h

theorem txtPairs_sub (v : Int) (m : Str) (h : (v, m) ∈ txtPairs) : (v, m) ∈ listingPairs := by
  obtain ⟨l, hl, e⟩ := List.mem_map.1 h
  cases e
  have h := txt_rows l hl
  unfold rowMatches at h
  obtain ⟨o, ho, h⟩ := Option.any_eq_true .. |>.1 h
  obtain ⟨f, hf, h⟩ := List.any_eq_true.1 h
  have h := of_decide_eq_true h
  unfold listingPairs
  refine List.mem_flatMap.2 ⟨(txtMnemonic l, o), dget_mem ho, List.mem_map.2 ⟨txtCode l, ?_, rfl⟩⟩
  exact (pySortedInt_perm _).mem_iff.2 (List.mem_map.2 ⟨f, hf, h⟩)

end H800
