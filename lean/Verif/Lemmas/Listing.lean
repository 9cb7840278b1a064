import Verif.Lemmas.Opcodes
import Verif.Lemmas.Sort

/-! The opcode listing. -/

namespace H800

open Spec

theorem mapM_ok {α β : Type} {f : α → Py β} {g : α → β} {l : List α}
    (h : ∀ x ∈ l, f x = .ok (g x)) : l.mapM f = .ok (l.map g) := by
  induction l with
  | nil => rfl
  | cons x l ih =>
    rw [List.mapM_cons, h x (by simp)]
    simp only [py_bind_ok]
    rw [ih (fun y hy => h y (by simp [hy]))]
    rfl

section
variable {κ ν : Type} [DecidableEq κ]

/-- A sequence of assignments. -/
def dsets (d : Dict κ ν) (l : List (κ × ν)) : Dict κ ν := l.foldl (fun d p => dset d p.1 p.2) d

theorem dset_get (d : Dict κ ν) (k k' : κ) (v : ν) :
    dget (dset d k v) k' = if k = k' then some v else dget d k' := by
  induction d with
  | nil => simp [dset, dget]
  | cons p d ih =>
    obtain ⟨a, b⟩ := p
    unfold dset
    by_cases hk : a = k
    · subst hk
      simp only [if_true, dget]
      split <;> rfl
    · simp only [hk, if_false, dget, ih]
      by_cases h1 : a = k'
      · subst h1; simp [Ne.symm hk]
      · simp [h1]

theorem dsets_nodup (d : Dict κ ν) (l : List (κ × ν)) (h : (d.map (·.1)).Nodup) :
    ((dsets d l).map (·.1)).Nodup := by
  induction l generalizing d with
  | nil => exact h
  | cons p l ih => exact ih _ (dset_nodup h _ _)

theorem dsets_keys (d : Dict κ ν) (l : List (κ × ν)) (k : κ) :
    k ∈ (dsets d l).map (·.1) ↔ k ∈ d.map (·.1) ∨ k ∈ l.map (·.1) := by
  induction l generalizing d with
  | nil => simp [dsets]
  | cons p l ih =>
    have : dsets d (p :: l) = dsets (dset d p.1 p.2) l := rfl
    rw [this, ih, dset_mem_keys]
    simp only [List.map_cons, List.mem_cons]
    tauto

theorem dsets_mem (d : Dict κ ν) (l : List (κ × ν)) {k : κ} {v : ν}
    (h : dget (dsets d l) k = some v) : dget d k = some v ∨ (k, v) ∈ l := by
  induction l generalizing d with
  | nil => left; exact h
  | cons p l ih =>
    rcases ih (dset d p.1 p.2) h with h | h
    · rw [dset_get] at h
      split at h
      · rename_i e; cases h; right; rw [← e]; exact List.mem_cons_self
      · left; exact h
    · right; right; exact h

/-- Assignments to one key that never disagree: the dictionary is the relation. -/
theorem dsets_functional (l : List (κ × ν))
    (hf : ∀ k v v', (k, v) ∈ l → (k, v') ∈ l → v = v') (k : κ) (v : ν) :
    dget (dsets [] l) k = some v ↔ (k, v) ∈ l := by
  constructor
  · intro h
    rcases dsets_mem [] l h with h | h
    · cases h
    · exact h
  · intro h
    have hk : k ∈ (dsets [] l).map (·.1) := (dsets_keys [] l k).2 (Or.inr (List.mem_map.2 ⟨_, h, rfl⟩))
    obtain ⟨w, hw⟩ := Option.isSome_iff_exists.1 (dget_isSome.2 hk)
    rcases dsets_mem [] l hw with h' | h'
    · cases h'
    · rw [hw, hf k w v h' h]

end

/-- The operands listed for a row. -/
def listingForms (m : Str) (o : Opcode) : List Form :=
  let bits := pyRange 0 2
  if o.type = py "maskable" then
    (bits.flatMap fun i => (pyRange 0 32).map fun j => (i, j)).map fun p => .masked p.1 p.2
  else if o.type = py "unmasked" then
    (bits.flatMap fun i => bits.flatMap fun j => bits.flatMap fun k => bits.map fun l =>
      (i, j, k, l)).map fun p => .unmasked p.1 p.2.1 p.2.2.1 p.2.2.2
  else if o.type = py "peripheral" then
    (pyRange 0 64).map fun i => .peripheral i
  else if o.type = py "print" then
    if m = py "PRD" then
      (bits.flatMap fun i => bits.flatMap fun j => bits.flatMap fun k => bits.map fun l =>
        (i, j, k, l)).map fun p => .print p.1 p.2.1 p.2.2.1 p.2.2.2
    else []
  else [.simulator 0, .simulator 1]

/-- The codes listed for a row. -/
def rowCodes (p : Str × Opcode) : List Int :=
  (listingForms p.1 p.2).map fun f => f.code (p.2.b23.getD 0) (p.2.b7.getD 0) p.2.op

theorem opcodes_nodup : (OPCODES.map (·.1)).Nodup := by decide +kernel

theorem listingCodes_eq (m : Str) (o : Opcode) (ho : dget OPCODES m = some o) :
    listingCodes m o = .ok (rowCodes (m, o)) := by
  have hE : dgetE OPCODES m = .ok o := by unfold dgetE; rw [ho]
  obtain ⟨-, -, hty⟩ := row_ok ho
  simp only at hty
  unfold listingCodes rowCodes listingForms
  rcases hty with ⟨h, h23, h7⟩ | ⟨h, h23, h7⟩ | ⟨h, h23, h7⟩ | ⟨h, h23, h7⟩ | ⟨h, h23, h7, hop⟩
  · rw [if_pos h]
    simp only [if_pos h, List.map_map]
    apply mapM_ok
    intro x _
    simp only [makeMasked, hE, py_bind_ok, h7, BitField.needInt, py_pure, Function.comp, Form.code,
      maskedCode, Option.getD_some]
    congr 1; ring
  · have e1 : ¬ o.type = py "maskable" := by rw [h]; decide
    obtain ⟨v, hv⟩ := Option.isSome_iff_exists.1 h23
    simp only [if_neg e1, if_pos h, List.map_map]
    apply mapM_ok
    intro x _
    simp only [makeUnmasked, hE, py_bind_ok, hv, BitField.needInt, py_pure, Function.comp, Form.code,
      unmaskedCode, Option.getD_some]
    congr 1; ring
  · have e1 : ¬ o.type = py "maskable" := by rw [h]; decide
    have e2 : ¬ o.type = py "unmasked" := by rw [h]; decide
    simp only [if_neg e1, if_neg e2, if_pos h, List.map_map]
    apply mapM_ok
    intro x _
    simp only [makePeripheral, hE, py_bind_ok, h7, BitField.needInt, py_pure, Function.comp,
      Form.code, peripheralCode, Option.getD_some]
    congr 1; ring
  · have e1 : ¬ o.type = py "maskable" := by rw [h]; decide
    have e2 : ¬ o.type = py "unmasked" := by rw [h]; decide
    have e3 : ¬ o.type = py "peripheral" := by rw [h]; decide
    simp only [if_neg e1, if_neg e2, if_neg e3, if_pos h]
    by_cases hm : m = py "PRD"
    · simp only [if_pos hm, List.map_map]
      apply mapM_ok
      intro x _
      simp only [makePrint, hE, py_bind_ok, h7, BitField.needInt, py_pure, Function.comp, Form.code,
        printCode, Option.getD_some]
      congr 1; ring
    · simp only [if_neg hm, List.map_nil]
  · have e1 : ¬ o.type = py "maskable" := by rw [h]; decide
    have e2 : ¬ o.type = py "unmasked" := by rw [h]; decide
    have e3 : ¬ o.type = py "peripheral" := by rw [h]; decide
    have e4 : ¬ o.type = py "print" := by rw [h]; decide
    simp only [if_neg e1, if_neg e2, if_neg e3, if_neg e4, if_pos h, List.map_cons, List.map_nil,
      Form.code, simulatorCode, hop]
    norm_num

theorem listingTable_eq : listingTable = .ok (OPCODES.map fun p => (p.1, rowCodes p)) := by
  unfold listingTable
  apply mapM_ok
  intro p hp
  obtain ⟨m, o⟩ := p
  simp only
  rw [listingCodes_eq m o (dget_of_mem opcodes_nodup hp)]
  rfl

/-- All (code, mnemonic) pairs assigned to `opmap`, in order. -/
def listingPairs : List (Int × Str) :=
  OPCODES.flatMap fun p => (pySortedInt (rowCodes p)).map fun v => (v, p.1)

theorem foldl_dsets (t : List (Str × List Int)) (d : Dict Int Str) :
    t.foldl (fun d p => (pySortedInt p.2).foldl (fun d v => dset d v p.1) d) d =
      dsets d (t.flatMap fun p => (pySortedInt p.2).map fun v => (v, p.1)) := by
  induction t generalizing d with
  | nil => rfl
  | cons p t ih =>
    rw [List.foldl_cons, ih, List.flatMap_cons]
    unfold dsets
    rw [List.foldl_append, List.foldl_map]

theorem listingMap_eq :
    listingMap (OPCODES.map fun p => (p.1, rowCodes p)) = dsets [] listingPairs := by
  unfold listingMap
  rw [foldl_dsets]
  unfold listingPairs
  rw [List.flatMap_map]

theorem mem_pyRange (a b x : Int) : x ∈ pyRange a b ↔ a ≤ x ∧ x < b := by
  unfold pyRange
  simp only [List.mem_map, List.mem_range]
  constructor
  · rintro ⟨i, hi, rfl⟩; omega
  · intro h; exact ⟨(x - a).toNat, by omega, by omega⟩

theorem mem_bits (x : Int) : x ∈ pyRange 0 2 ↔ Bit x := by
  rw [mem_pyRange]; unfold Bit; omega

theorem mem_listingForms {m : Str} {o : Opcode} (ho : dget OPCODES m = some o) (f : Form) :
    f ∈ listingForms m o ↔ f.Suits o.type ∧ f.InRange ∧
    (o.type = py "maskable" → ∃ s k, f = .masked s k) ∧ (o.type = py "print" → m = py "PRD") := by
  obtain ⟨-, -, hty⟩ := row_ok ho
  simp only at hty
  unfold listingForms
  rcases hty with ⟨h, -⟩ | ⟨h, -⟩ | ⟨h, -⟩ | ⟨h, -⟩ | ⟨h, -⟩ <;>
    simp only [h, if_true, List.mem_map, List.mem_flatMap, mem_pyRange]
  · constructor
    · rintro ⟨p, ⟨i, hi, j, hj, rfl⟩, rfl⟩
      refine ⟨rfl, ⟨(mem_bits _).1 ((mem_pyRange _ _ _).2 hi), ?_⟩, fun _ => ⟨_, _, rfl⟩, fun e => absurd e (by decide)⟩
      unfold Fits; norm_num; omega
    · rintro ⟨-, hr, hm, -⟩
      obtain ⟨s, k, rfl⟩ := hm trivial
      obtain ⟨h1, h2⟩ := hr
      refine ⟨(s, k), ⟨s, (mem_pyRange _ _ _).1 ((mem_bits _).2 h1), k, ?_, rfl⟩, rfl⟩
      unfold Fits at h2; norm_num at h2; omega
  · rw [if_neg (by decide)]
    simp only [List.mem_map, List.mem_flatMap, mem_bits]
    constructor
    · rintro ⟨p, ⟨i, hi, j, hj, k, hk, l, hl, rfl⟩, rfl⟩
      exact ⟨Or.inr rfl, ⟨hi, hj, hk, hl⟩, fun e => absurd e (by decide),
        fun e => absurd e (by decide)⟩
    · rintro ⟨hs, hr, -, -⟩
      cases f with
      | unmasked s a b c =>
        exact ⟨(s, a, b, c), ⟨s, hr.1, a, hr.2.1, b, hr.2.2.1, c, hr.2.2.2, rfl⟩, rfl⟩
      | masked s k => exact absurd (show py "unmasked" = py "maskable" from hs) (by decide)
      | peripheral p => exact absurd (show py "unmasked" = py "peripheral" from hs) (by decide)
      | print s a b c => exact absurd (show py "unmasked" = py "print" from hs) (by decide)
      | simulator s => exact absurd (show py "unmasked" = py "simulator" from hs) (by decide)
  · rw [if_neg (by decide), if_neg (by decide)]
    simp only [List.mem_map, mem_pyRange]
    constructor
    · rintro ⟨p, hp, rfl⟩
      refine ⟨rfl, ?_, fun e => absurd e (by decide), fun e => absurd e (by decide)⟩
      show Fits 6 p
      unfold Fits; norm_num; omega
    · rintro ⟨hs, hr, -, -⟩
      cases f with
      | peripheral p =>
        have hr : Fits 6 p := hr
        refine ⟨p, ?_, rfl⟩
        unfold Fits at hr; norm_num at hr; omega
      | masked s k => exact absurd (show py "peripheral" = py "maskable" from hs) (by decide)
      | unmasked s a b c =>
        exact absurd (show py "peripheral" = py "maskable" ∨ py "peripheral" = py "unmasked" from hs)
          (by decide)
      | print s a b c => exact absurd (show py "peripheral" = py "print" from hs) (by decide)
      | simulator s => exact absurd (show py "peripheral" = py "simulator" from hs) (by decide)
  · rw [if_neg (by decide), if_neg (by decide), if_neg (by decide)]
    by_cases hm : m = py "PRD"
    · rw [if_pos hm]
      simp only [List.mem_map, List.mem_flatMap, mem_bits]
      constructor
      · rintro ⟨p, ⟨i, hi, j, hj, k, hk, l, hl, rfl⟩, rfl⟩
        exact ⟨rfl, ⟨hi, hj, hk, hl⟩, fun e => absurd e (by decide), fun _ => hm⟩
      · rintro ⟨hs, hr, -, -⟩
        cases f with
        | print s a b c =>
          exact ⟨(s, a, b, c), ⟨s, hr.1, a, hr.2.1, b, hr.2.2.1, c, hr.2.2.2, rfl⟩, rfl⟩
        | masked s k => exact absurd (show py "print" = py "maskable" from hs) (by decide)
        | peripheral p => exact absurd (show py "print" = py "peripheral" from hs) (by decide)
        | unmasked s a b c =>
          exact absurd (show py "print" = py "maskable" ∨ py "print" = py "unmasked" from hs)
            (by decide)
        | simulator s => exact absurd (show py "print" = py "simulator" from hs) (by decide)
    · rw [if_neg hm]
      simp [hm]
  · rw [if_neg (by decide), if_neg (by decide), if_neg (by decide), if_neg (by decide)]
    simp only [List.mem_cons, List.not_mem_nil, or_false]
    constructor
    · rintro (rfl | rfl)
      · exact ⟨rfl, Or.inl rfl, fun e => absurd e (by decide), fun e => absurd e (by decide)⟩
      · exact ⟨rfl, Or.inr rfl, fun e => absurd e (by decide), fun e => absurd e (by decide)⟩
    · rintro ⟨hs, hr, -, -⟩
      cases f with
      | simulator s =>
        rcases hr with rfl | rfl
        · left; rfl
        · right; rfl
      | masked s k => exact absurd (show py "simulator" = py "maskable" from hs) (by decide)
      | peripheral p => exact absurd (show py "simulator" = py "peripheral" from hs) (by decide)
      | print s a b c => exact absurd (show py "simulator" = py "print" from hs) (by decide)
      | unmasked s a b c =>
        exact absurd (show py "simulator" = py "maskable" ∨ py "simulator" = py "unmasked" from hs)
          (by decide)

end H800
