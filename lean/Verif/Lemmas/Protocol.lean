import Verif.Model.Protocol
import Verif.Lemmas.Registers
import Verif.Lemmas.Memory

/-!
Lemmas for C221 and C222: the two protocols in general.
-/

namespace H800

open Spec

/-- Items at `i, ..., i + n - 1`, then an exception other than IndexError. -/
theorem seqContains_run {α : Type} (same : α → Bool) (get : Int → Py α) (e : PyErr)
    (he : e ≠ .indexError) (xs : List α) :
    ∀ (i : Int), (∀ (j : Nat) (x : α), xs[j]? = some x → get (i + j) = .ok x) →
      get (i + xs.length) = .error e → ∀ fuel, xs.length < fuel →
      seqContains same get fuel i = some (if xs.any same then .ok true else .error e) := by
  induction xs with
  | nil =>
    intro i _ hend fuel hf
    obtain ⟨f, rfl⟩ : ∃ f, fuel = f + 1 := ⟨fuel - 1, by simp at hf; omega⟩
    simp only [List.length_nil, Nat.cast_zero, Int.add_zero] at hend
    simp [seqContains, hend]
  | cons x xs ih =>
    intro i hget hend fuel hf
    obtain ⟨f, rfl⟩ : ∃ f, fuel = f + 1 := ⟨fuel - 1, by simp at hf; omega⟩
    have h0 := hget 0 x (by simp)
    simp only [Nat.cast_zero, Int.add_zero] at h0
    have h1 := ih (i + 1)
      (fun j y hj => by
        have := hget (j + 1) y (by simpa using hj)
        rw [← this]; congr 1; push_cast; ring)
      (by rw [← hend]; congr 1; simp only [List.length_cons]; push_cast; ring)
      f (by simp at hf; omega)
    simp only [seqContains, h0, h1, List.any_cons]
    by_cases hs : same x = true <;> simp [hs]

/-- The items from `k` on are all there. -/
theorem revIter_upto {α : Type} (get : Int → Py α) (f : Nat → α) (k n : Nat)
    (h : ∀ i : Nat, k ≤ i → i < k + n → get i = .ok (f i)) :
    revIter get (k + n) = (((List.range' k n).map f).reverse ++ (revIter get k).1,
      (revIter get k).2) := by
  induction n with
  | zero => rfl
  | succ n ih =>
    have h1 := h (k + n) (by omega) (by omega)
    have h2 := ih fun i hi hj => h i hi (by omega)
    rw [show k + (n + 1) = (k + n) + 1 from rfl, revIter]
    simp only [h1, h2]
    rw [show List.range' k (n + 1) = List.range' k n ++ [k + n] by
      rw [List.range'_concat, one_mul]]
    simp

theorem revIter_all {α : Type} (get : Int → Py α) (f : Nat → α) (n : Nat)
    (h : ∀ i : Nat, i < n → get i = .ok (f i)) :
    revIter get n = (((List.range n).map f).reverse, none) := by
  have := revIter_upto get f 0 n fun i _ hi => h i (by omega)
  rw [Nat.zero_add] at this
  rw [this, List.range_eq_range']
  simp [revIter]

theorem revIter_stop {α : Type} (get : Int → Py α) (e : PyErr) (he : e ≠ .indexError) (n : Nat)
    (h : get n = .error e) : revIter get (n + 1) = ([], some e) := by
  simp only [revIter, h]

theorem bank_containsLoop (x : Sought) (vs : List Int) (fuel c : Nat)
    (hf : vs.length < fuel + c) (hc : c ≤ vs.length) :
    MemoryBank.containsLoop x fuel (MemoryBank.mkBank vs c) =
      match (List.range' c (vs.length - c)).find? x.isWord with
      | some a => (MemoryBank.mkBank vs (a + 1), true)
      | none => (MemoryBank.mkBank vs vs.length, false) := by
  induction fuel generalizing c with
  | zero => omega
  | succ fuel ih =>
    unfold MemoryBank.containsLoop MemoryBank.next
    rw [MemoryBank.len_mk]
    have hcur : (MemoryBank.mkBank vs c).current = c := rfl
    rw [hcur]
    by_cases h : c = vs.length
    · rw [if_pos (by omega), h]
      simp
    · rw [if_neg (by omega)]
      rw [show vs.length - c = (vs.length - (c + 1)) + 1 by omega, List.range'_succ,
        List.find?_cons]
      dsimp only
      cases hx : x.isWord c with
      | true => rfl
      | false => exact ih (c + 1) (by omega) (by omega)

theorem group_containsLoop {base : Nat} (x : Option Nat) (fuel : Nat) (g : RegisterGroup)
    (h : GroupInv base g) (hf : 32 < fuel + g.current) :
    RegisterGroup.containsLoop x fuel g =
      match (List.range' g.current (32 - g.current)).find? (fun n => x = some (base + n)) with
      | some n => ({ g with current := n + 1 }, .ok true)
      | none => ({ g with current := 32 }, .ok false) := by
  induction fuel generalizing g with
  | zero => have := h.1; omega
  | succ fuel ih =>
    unfold RegisterGroup.containsLoop
    rw [groupInv_next h]
    by_cases hc : g.current = 32
    · rw [if_pos hc]
      obtain ⟨w, d, c⟩ := g
      simp only at hc
      subst hc; simp
    · rw [if_neg hc]
      have hle := h.1
      have h' : GroupInv base { g with current := g.current + 1 } := ⟨by simp only; omega, h.2⟩
      rw [show 32 - g.current = (32 - (g.current + 1)) + 1 by omega, List.range'_succ,
        List.find?_cons]
      dsimp only
      by_cases hx : x = some (base + g.current)
      · rw [if_pos hx]; simp [hx]
      · rw [if_neg hx, ih _ h' (by simp only; omega)]
        simp [hx]

/-! ### The register file -/

/-- The slots 0 to 7 are there and the cursor has not passed them. -/
def FileInv (s : Registers) (ref : Nat → Nat) : Prop :=
  s.current ≤ 8 ∧ ∀ n : Nat, n < 8 → dget s.slots (n : Int) = some (ref n)

theorem fileInv_next {s : Registers} {ref : Nat → Nat} (h : FileInv s ref) :
    s.next = if s.current = 8 then (s, .ok none)
      else ({ s with current := s.current + 1 }, .ok (some (ref s.current))) := by
  obtain ⟨hc, hd⟩ := h
  unfold Registers.next Registers.NUM_GROUPS
  by_cases h : s.current = 8
  · rw [if_pos (by omega), if_pos h]
  · rw [if_neg (by omega), if_neg h]
    unfold dgetE
    simp only [hd s.current (by omega)]

theorem file_containsLoop {ref : Nat → Nat} (x : Option Nat) (fuel : Nat) (s : Registers)
    (h : FileInv s ref) (hf : 8 < fuel + s.current) :
    Registers.containsLoop x fuel s =
      match (List.range' s.current (8 - s.current)).find? (fun n => x = some (ref n)) with
      | some n => ({ s with current := n + 1 }, .ok true)
      | none => ({ s with current := 8 }, .ok false) := by
  induction fuel generalizing s with
  | zero => have := h.1; omega
  | succ fuel ih =>
    unfold Registers.containsLoop
    rw [fileInv_next h]
    by_cases hc : s.current = 8
    · rw [if_pos hc]
      obtain ⟨w, d, e, c⟩ := s
      simp only at hc
      subst hc; simp
    · rw [if_neg hc]
      have hle := h.1
      have h' : FileInv { s with current := s.current + 1 } ref := ⟨by simp only; omega, h.2⟩
      rw [show 8 - s.current = (8 - (s.current + 1)) + 1 by omega, List.range'_succ,
        List.find?_cons]
      dsimp only
      by_cases hx : x = some (ref s.current)
      · rw [if_pos hx]; simp [hx]
      · rw [if_neg hx, ih _ h' (by simp only; omega)]
        simp [hx]

theorem next_slots_eq (s : Registers) : s.next.1.slots = s.slots ∧
    (s.current ≤ 8 → s.next.1.current ≤ 8) := by
  unfold Registers.next Registers.NUM_GROUPS
  split
  · exact ⟨rfl, id⟩
  · dsimp only
    split <;> exact ⟨rfl, fun _ => by dsimp only; omega⟩

theorem clearGroupRef_slots (s : Registers) (g : Nat) : (s.clearGroupRef g).1.slots = s.slots ∧
    (s.clearGroupRef g).1.current = s.current := by
  unfold Registers.clearGroupRef
  split
  · exact ⟨rfl, rfl⟩
  · split
    exact ⟨rfl, rfl⟩

theorem clearLoop_slots (fuel : Nat) (s : Registers) :
    (Registers.clearLoop fuel s).1.slots = s.slots ∧
    (s.current ≤ 8 → (Registers.clearLoop fuel s).1.current ≤ 8) := by
  induction fuel generalizing s with
  | zero => exact ⟨rfl, id⟩
  | succ fuel ih =>
    rw [Registers.clearLoop]
    have h1 := next_slots_eq s
    generalize s.next = q at h1 ⊢
    rcases q with ⟨s', e | o⟩
    · exact h1
    · rcases o with _ | g
      · exact h1
      · dsimp only at h1 ⊢
        have h2 := clearGroupRef_slots s' g
        generalize s'.clearGroupRef g = q at h2 ⊢
        rcases q with ⟨s'', e | u⟩
        · exact ⟨h2.1.trans h1.1, fun h => le_of_eq_of_le h2.2 (h1.2 h)⟩
        · have h3 := ih s''
          exact ⟨h3.1.trans (h2.1.trans h1.1), fun h => h3.2 (le_of_eq_of_le h2.2 (h1.2 h))⟩

theorem onReg_slots_eq (s : Registers) (g : FKey) (k : GKey) (f : Register → Register) :
    (RegOp.onReg s g k f).slots = s.slots ∧ (RegOp.onReg s g k f).current = s.current := by
  unfold RegOp.onReg
  split <;> exact ⟨rfl, rfl⟩

/-- No operation but an assignment changes which groups are in the file. -/
theorem regOp_slots (s : Registers) (op : RegOp) : (op.run s).slots = s.slots ∧
    (s.current ≤ 8 → (op.run s).current ≤ 8) := by
  cases op with
  | write g k v => have h := onReg_slots_eq s g k fun r => (r.setValue v).1; exact ⟨h.1, fun hc => h.2 ▸ hc⟩
  | bit g k i x =>
    have h := onReg_slots_eq s g k fun r => (r.setitem (.idx i) x).1
    exact ⟨h.1, fun hc => h.2 ▸ hc⟩
  | slice g k a b x =>
    have h := onReg_slots_eq s g k fun r => (r.setitem (.slice (some a) (some b)) x).1
    exact ⟨h.1, fun hc => h.2 ▸ hc⟩
  | clearReg g k => have h := onReg_slots_eq s g k Register.clear; exact ⟨h.1, fun hc => h.2 ▸ hc⟩
  | next g =>
    simp only [RegOp.run]
    split <;> exact ⟨rfl, id⟩
  | clearGroup g =>
    simp only [RegOp.run]
    split
    · exact ⟨rfl, id⟩
    · have h := clearGroupRef_slots s
      exact ⟨(h _).1, fun hc => (h _).2 ▸ hc⟩
  | nextFile => exact next_slots_eq s
  | clearFile => exact clearLoop_slots _ s

theorem dset_length {κ ν : Type} [DecidableEq κ] (d : Dict κ ν) (k : κ) (v : ν) :
    (dset d k v).length = if (dget d k).isSome then d.length else d.length + 1 := by
  induction d with
  | nil => rfl
  | cons p d ih =>
    obtain ⟨a, b⟩ := p
    simp only [dset]
    by_cases ha : a = k
    · rw [if_pos ha]
      simp [dget, ha]
    · rw [if_neg ha, List.length_cons, ih]
      simp only [dget, if_neg ha]
      split <;> simp

end H800
