import Verif.Lemmas.OpcodesTxt
import Verif.Props.Instruction

/-!
Properties C46-C48: the opcode listing, the mnemonic lists and the character set.
-/

namespace H800

open Spec

/-- A listed form: the masked form of a maskable opcode, the form of an unmasked or peripheral or
simulator opcode, and of the print opcodes only PRD. -/
def Listed (m : Str) (f : Form) : Prop :=
  ∃ o, dget OPCODES m = some o ∧ f.Suits o.type ∧ f.InRange ∧
    (o.type = py "maskable" → ∃ s k, f = .masked s k) ∧ (o.type = py "print" → m = py "PRD")

theorem mem_listingPairs (v : Int) (m : Str) :
    (v, m) ∈ listingPairs ↔ ∃ f, Listed m f ∧ tableCode m f = .ok v := by
  unfold listingPairs
  simp only [List.mem_flatMap, List.mem_map, Prod.mk.injEq]
  constructor
  · rintro ⟨⟨k, o⟩, hp, w, hw, rfl, rfl⟩
    have ho := dget_of_mem opcodes_nodup hp
    have hw := (pySortedInt_perm _).mem_iff.1 hw
    unfold rowCodes at hw
    obtain ⟨f, hf, rfl⟩ := List.mem_map.1 hw
    have hl := (mem_listingForms ho f).1 hf
    exact ⟨f, ⟨o, ho, hl⟩, tableCode_eq ho hl.1 hl.2.1⟩
  · rintro ⟨f, ⟨o, ho, hl⟩, hc⟩
    rw [tableCode_eq ho hl.1 hl.2.1] at hc
    cases hc
    refine ⟨(m, o), dget_mem ho, _, (pySortedInt_perm _).mem_iff.2 ?_, rfl, rfl⟩
    exact List.mem_map.2 ⟨f, (mem_listingForms ho f).2 hl, rfl⟩

theorem listingPairs_functional (v : Int) (m m' : Str) (h : (v, m) ∈ listingPairs)
    (h' : (v, m') ∈ listingPairs) : m = m' := by
  rw [mem_listingPairs] at h h'
  obtain ⟨f, ⟨o, ho, h1, h2, h3, h4⟩, hc⟩ := h
  obtain ⟨f', ⟨o', ho', h1', h2', h3', h4'⟩, hc'⟩ := h'
  obtain ⟨rfl, e⟩ := (C42_clashes_partial m m' f f' ⟨o, ho, h1, h2⟩ ⟨o', ho', h1', h2'⟩).1
    (hc.trans hc'.symm)
  rcases e with e | ⟨e, e'⟩ | ⟨⟨s, a, b, c, rfl⟩, e⟩
  · exact e
  · have t : ∀ p ∈ OPCODES, p.1 ∈ [py "PRA", py "PRD", py "PRO"] → p.2.type = py "print" := by
      decide +kernel
    rw [h4 (t _ (dget_mem ho) e), h4' (t _ (dget_mem ho') e')]
  · have t : ∀ p ∈ OPCODES, p.1 = py "NA" → p.2.type = py "maskable" := by decide +kernel
    exfalso
    rcases e with e | e
    · obtain ⟨_, _, e⟩ := h3 (t _ (dget_mem ho) e.1); cases e
    · obtain ⟨_, _, e⟩ := h3' (t _ (dget_mem ho') e.2); cases e

/-- `listing` in terms of the assignments made to its table. -/
theorem listing_of_pairs (t : List (Str × List Int)) (ps : List (Int × Str))
    (ht : listingTable = .ok t) (hm : listingMap t = dsets [] ps)
    (hf : ∀ v m m', (v, m) ∈ ps → (v, m') ∈ ps → m = m') :
    ∃ L, listing = .ok L ∧ L.Pairwise (fun p q => p.1 < q.1) ∧ ∀ v m, (v, m) ∈ L ↔ (v, m) ∈ ps := by
  have hn : ((dsets [] ps).map (·.1)).Nodup := dsets_nodup [] _ (by simp)
  have hfun := dsets_functional ps hf
  generalize dsets [] ps = d at *
  have hl : listing = .ok ((pySortedInt (d.map (·.1))).map fun v => (v, (dget d v).getD [])) := by
    unfold listing
    rw [ht]
    simp only [py_bind_ok, hm]
    apply mapM_ok
    intro v hv
    have hv := (pySortedInt_perm _).mem_iff.1 hv
    obtain ⟨s, hs⟩ := Option.isSome_iff_exists.1 (dget_isSome.2 hv)
    unfold dgetE
    rw [hs]; rfl
  refine ⟨_, hl, ?_, ?_⟩
  · rw [List.pairwise_map]
    exact pySortedInt_strict _ hn
  · intro v m
    rw [← hfun]
    simp only [List.mem_map, Prod.mk.injEq]
    constructor
    · rintro ⟨w, hw, rfl, e⟩
      have hw := (pySortedInt_perm _).mem_iff.1 hw
      obtain ⟨s, hs⟩ := Option.isSome_iff_exists.1 (dget_isSome.2 hw)
      rw [hs] at e ⊢
      simp only [Option.getD_some] at e
      rw [e]
    · intro h
      refine ⟨v, (pySortedInt_perm _).mem_iff.2 (dget_isSome.1 (by rw [h]; rfl)), rfl, ?_⟩
      rw [h]; rfl

/-- C46: the listing is strictly increasing in the code and contains exactly the listed forms, each
with the mnemonic that encodes to it. -/
theorem C46_listing : ∃ L, listing = .ok L ∧ L.Pairwise (fun p q => p.1 < q.1) ∧
    ∀ v m, (v, m) ∈ L ↔ ∃ f, Listed m f ∧ tableCode m f = .ok v := by
  obtain ⟨L, h1, h2, h3⟩ := listing_of_pairs _ _ listingTable_eq listingMap_eq
    listingPairs_functional
  exact ⟨L, h1, h2, fun v m => (h3 v m).trans (mem_listingPairs v m)⟩

/-- C46: printed line by line, the listing is the file `opcodes.txt`. -/
theorem C46_opcodes_txt : ∃ L, listing = .ok L ∧ L.map listingLine = opcodesTxt := by
  obtain ⟨L, h1, h2, h3⟩ := listing_of_pairs _ _ listingTable_eq listingMap_eq
    listingPairs_functional
  refine ⟨L, h1, ?_⟩
  have nd : ∀ {l : List (Int × Str)}, l.Pairwise (fun p q => p.1 < q.1) → l.Nodup :=
    fun h => h.imp (fun {a b} hlt e => by rw [e] at hlt; omega)
  have hsub : txtPairs ⊆ L := fun p hp => (h3 p.1 p.2).2 (txtPairs_sub p.1 p.2 hp)
  have hlen : L.length ≤ txtPairs.length := by
    have := (List.subperm_of_subset (nd h2) (fun p hp => (h3 p.1 p.2).1 hp)).length_le
    rw [pairs_length] at this
    unfold txtPairs
    rwa [List.length_map]
  have hp := (List.subperm_of_subset (nd txtPairs_strict) hsub).perm_of_length_le hlen
  rw [← eq_of_strict (lt := fun p q => p.1 < q.1) (fun _ => lt_irrefl _)
    (fun _ _ _ => lt_trans) txtPairs_strict h2
    (fun x => hp.mem_iff)]
  unfold txtPairs
  rw [List.map_map]
  conv_rhs => rw [← List.map_id opcodesTxt]
  apply List.map_congr_left
  intro l hl
  exact txt_lines l hl

/-- A concrete listed code: BA with mask 24 in the main sequence. -/
example : Listed (py "BA") (.masked 0 24) ∧ tableCode (py "BA") (.masked 0 24) = .ok 0o3051 := by
  refine ⟨⟨_, rfl, rfl, by decide, fun _ => ⟨_, _, rfl⟩, fun h => absurd h (by decide)⟩, ?_⟩
  decide +kernel

/-- C47: no mnemonic occurs twice in the list of valid instructions. -/
theorem C47_no_duplicates : INSTRUCTIONS.Nodup := by decide +kernel

/-- The seven tables that make up `INSTRUCTIONS`. -/
def mnemonicTables : List (List Str) :=
  [OPCODES.map (·.1), CONTROL_INSTRUCTIONS, DATA_CONSTANTS, CONTROL_CONSTANTS,
   EXTENDED_INSTRUCTIONS, MISC_INSTRUCTIONS, ARGUS_INSTRUCTIONS]

/-- C47: a string is a valid instruction exactly when it is in exactly one of the tables. -/
theorem C47_one_table (m : Str) :
    m ∈ INSTRUCTIONS ↔ ∃! i : Fin mnemonicTables.length, m ∈ mnemonicTables[i] := by
  have hflat : INSTRUCTIONS = mnemonicTables.flatten := by decide +kernel
  have hd : mnemonicTables.Pairwise List.Disjoint :=
    (List.nodup_flatten.1 (hflat ▸ C47_no_duplicates)).2
  rw [hflat, List.mem_flatten]
  constructor
  · rintro ⟨t, ht, hm⟩
    obtain ⟨i, hi, rfl⟩ := List.mem_iff_getElem.1 ht
    refine ⟨⟨i, hi⟩, hm, fun j hj => ?_⟩
    by_contra hne
    rcases lt_or_gt_of_ne (fun e => hne (Fin.ext e) : j.1 ≠ i) with h | h
    · exact List.pairwise_iff_getElem.1 hd j.1 i j.2 hi h hj hm
    · exact List.pairwise_iff_getElem.1 hd i j.1 hi j.2 h hm hj
  · rintro ⟨i, hi, -⟩
    exact ⟨_, List.getElem_mem i.2, hi⟩

/-- A mnemonic in one table, and a string in none. -/
example : py "SETLOC" ∈ INSTRUCTIONS ∧ py "NOPE" ∉ INSTRUCTIONS := by decide +kernel

/-- C48: the character set is defined on exactly the six-bit codes. -/
theorem C48_domain (c : Int) : (dget CHARSET c).isSome ↔ 0 ≤ c ∧ c < 64 := by
  have hk : CHARSET.map (·.1) = pyRange 0 64 := by decide +kernel
  rw [dget_isSome, hk, mem_pyRange]

/-- C48: two codes of the same non-blank character are equal. -/
theorem C48_unambiguous (c c' : Int) (x : Char) (hx : x ≠ ' ')
    (h : dget CHARSET c = some (some x)) (h' : dget CHARSET c' = some (some x)) : c = c' := by
  have t : ∀ p ∈ CHARSET, ∀ q ∈ CHARSET, p.2 = q.2 → p.2 ≠ some ' ' → p.1 = q.1 := by
    decide +kernel
  exact t _ (dget_mem h) _ (dget_mem h') rfl (by simpa using hx)

/-- C48: the blank codes, and the only code without a character. -/
theorem C48_blanks (c : Int) :
    (dget CHARSET c = some (some ' ') ↔ c ∈ ([13, 14, 31, 46, 47, 48, 62, 63] : List Int)) ∧
    (dget CHARSET c = some none ↔ c = 44) := by
  have hn : (CHARSET.map (·.1)).Nodup := by decide +kernel
  have t : ∀ p ∈ CHARSET, (p.2 = some ' ' ↔ p.1 ∈ ([13, 14, 31, 46, 47, 48, 62, 63] : List Int)) ∧
      (p.2 = none ↔ p.1 = 44) := by decide +kernel
  constructor
  · constructor
    · exact fun h => (t _ (dget_mem h)).1.1 rfl
    · intro h
      have : ∀ c ∈ ([13, 14, 31, 46, 47, 48, 62, 63] : List Int),
          dget CHARSET c = some (some ' ') := by decide +kernel
      exact this c h
  · constructor
    · exact fun h => (t _ (dget_mem h)).2.1 rfl
    · rintro rfl; decide +kernel

/-- The digits encode as themselves. -/
example : dget CHARSET 7 = some (some '7') ∧ dget CHARSET 17 = some (some 'A') := by decide +kernel

end H800
