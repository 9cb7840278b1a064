import Verif.Props.Memory
import Verif.Model.Slices

/-!
Properties C111 and C112: slices of memory modules, and slices with a step.
-/

namespace H800

open Spec

theorem modRun_length (m : MemoryModule) (ops : List (Int × MemOp)) :
    (modRun m ops).banks.length = m.banks.length := by
  induction ops generalizing m with
  | nil => rfl
  | cons op ops ih =>
    have : modRun m (op :: ops) = modRun (m.run op.1 op.2) ops := rfl
    rw [this, ih]
    unfold MemoryModule.run
    split
    · rfl
    · exact List.length_set

theorem bank_iff (m : MemoryModule) (k : Int) :
    (0 ≤ k → ∀ h : k.toNat < m.banks.length, m.bank k = .ok m.banks[k.toNat]) ∧
    (¬ (0 ≤ k ∧ k < m.banks.length) → m.bank k = .error .keyError) := by
  unfold MemoryModule.bank
  refine ⟨fun h0 h => ?_, fun h => ?_⟩
  · rw [if_neg (by omega), List.getElem?_eq_getElem h]
  · by_cases h0 : k < 0
    · rw [if_pos h0]
    · rw [if_neg h0, List.getElem?_eq_none (by omega)]

theorem bankList_ok (m : MemoryModule) (k : Nat) (s e : Int) (hk : (e - s).toNat = k)
    (hs : 0 ≤ s) (he : e ≤ m.banks.length) :
    m.bankList (pyRange s e) = .ok ((m.banks.drop s.toNat).take k) := by
  induction k generalizing s with
  | zero => rw [pyRange_cons, if_neg (by omega)]; rfl
  | succ k ih =>
    rw [pyRange_cons, if_pos (by omega)]
    unfold MemoryModule.bankList
    have hlt : s.toNat < m.banks.length := by omega
    rw [(bank_iff m s).1 hs hlt, ih (s + 1) (by omega) (by omega)]
    simp only [py_bind_ok, py_pure]
    rw [List.drop_eq_getElem_cons hlt, List.take_succ_cons]
    have : (s + 1).toNat = s.toNat + 1 := by omega
    rw [this]

theorem bankList_error (m : MemoryModule) (k : Nat) (s e : Int) (hk : (e - s).toNat = k)
    (hse : s < e) (hbad : s < 0 ∨ m.banks.length < e) :
    m.bankList (pyRange s e) = .error .keyError := by
  induction k generalizing s with
  | zero => omega
  | succ k ih =>
    rw [pyRange_cons, if_pos hse]
    unfold MemoryModule.bankList
    by_cases hs : 0 ≤ s ∧ s < m.banks.length
    · rw [(bank_iff m s).1 hs.1 (by omega), ih (s + 1) (by omega) (by omega) (by omega)]; rfl
    · rw [(bank_iff m s).2 hs]; rfl

/-- C111: after any history, a slice of a module lists the banks of its range in order, is empty for
an empty range, and raises KeyError when the range leaves the module; both ends are needed. -/
theorem C111_banks (expansion : Bool) (m0 : MemoryModule)
    (h0 : MemoryModule.init expansion = .ok m0) (ops : List (Int × MemOp)) (s e : Int)
    (step : Option Int) :
    let m := modRun m0 ops
    let n : Int := if expansion then 8 else 4
    (e ≤ s → m.getPySlice ⟨some s, some e, step⟩ = .ok []) ∧
    (s < e → 0 ≤ s → e ≤ n → ∃ l, m.getPySlice ⟨some s, some e, step⟩ = .ok l ∧
      (l.length : Int) = e - s ∧ ∀ (i : Nat) (hi : i < l.length), m.bank (s + i) = .ok l[i]) ∧
    (s < e → ¬ (0 ≤ s ∧ e ≤ n) → m.getPySlice ⟨some s, some e, step⟩ = .error .keyError) ∧
    (∀ o, m.getPySlice ⟨none, o, step⟩ = .error .typeError) ∧
    m.getPySlice ⟨some s, none, step⟩ = .error .typeError := by
  intro m n
  have hl : (m.banks.length : Int) = n := by
    have : m.banks.length = m0.banks.length := modRun_length m0 ops
    rw [this]
    unfold MemoryModule.init at h0
    rw [MemoryBank.init_eq] at h0
    cases h0
    rw [List.length_replicate]
    cases expansion <;> rfl
  clear_value m
  simp only [MemoryModule.getPySlice, BitField.needInt, py_bind_ok, py_bind_error]
  refine ⟨?_, ?_, ?_, fun _ => trivial, trivial⟩
  · intro h; rw [pyRange_cons, if_neg (by omega)]; rfl
  · intro h hs he
    have hlen : ((m.banks.drop s.toNat).take (e - s).toNat).length = (e - s).toNat := by
      rw [List.length_take, List.length_drop]; omega
    refine ⟨_, bankList_ok m _ s e rfl hs (by omega), ?_, ?_⟩
    · rw [hlen]; omega
    · intro i hi
      rw [hlen] at hi
      rw [(bank_iff m (s + i)).1 (by omega) (by omega)]
      simp only [List.getElem_take, List.getElem_drop]
      congr 2
      omega
  · intro h hb
    exact bankList_error m _ s e rfl h (by omega)

/-- A slice of two banks of a module. -/
example : ∃ m0 l, MemoryModule.init false = .ok m0 ∧
    m0.getPySlice ⟨some 1, some 3, none⟩ = .ok l ∧ l.length = 2 := ⟨_, _, rfl, rfl, rfl⟩

/-- C112, the property as stated: a slice with a step reads every `k`-th word of its range. -/
def C112_statement : Prop :=
  ∀ (m : MemoryBank) (s e k : Int) (l : List Int), BankReach m → 1 ≤ k →
    m.getPySlice ⟨some s, some e, some k⟩ = .ok l →
    ∀ (i : Nat) (hi : i < l.length), s + i * k < e ∧ m.get (s + i * k) = .ok l[i]

/-- C112, the part that holds: whatever the step, the slice reads every word of its range, and a slice
store fills every word of its range. -/
theorem C112_step_ignored_partial (m : MemoryBank) (hm : BankReach m) (s e v : Int)
    (step : Option Int) (hs : 0 ≤ s) (he : e ≤ 2048) :
    (∃ l, m.getPySlice ⟨some s, some e, step⟩ = .ok l ∧ l.length = (e - s).toNat ∧
      ∀ (i : Nat) (hi : i < l.length), m.get (s + i) = .ok l[i]) ∧
    (Fits 48 v → (m.setPySlice ⟨some s, some e, step⟩ v).2 = .ok () ∧
      ∀ x, 0 ≤ x → x < 2048 → (m.setPySlice ⟨some s, some e, step⟩ v).1.get x =
        if s ≤ x ∧ x < e then .ok v else m.get x) := by
  unfold MemoryBank.getPySlice MemoryBank.setPySlice
  simp only
  obtain ⟨r1, r2, -⟩ := C32_slice_read m hm s e
  obtain ⟨w1, -, -, w4⟩ := C31_slice_fill_partial m hm s e v
  by_cases h : s < e
  · obtain ⟨l, h1, h2, h3⟩ := r2 h hs he
    refine ⟨⟨l, h1, by omega, h3⟩, fun hv => ?_⟩
    obtain ⟨k1, k2⟩ := w4 h ⟨hs, by omega⟩ hv
    rw [if_pos he] at k1
    exact ⟨k1, k2⟩
  · refine ⟨⟨[], r1 (by omega), ?_, by simp⟩, fun _ => ?_⟩
    · rw [Int.toNat_of_nonpos (by omega)]; rfl
    · rw [w1 (by omega)]
      refine ⟨rfl, fun x _ _ => ?_⟩
      rw [if_neg (by omega)]

/-- C112 fails: `bank[0:4:2]` reads four words. -/
theorem C112_refuted : ¬ C112_statement := by
  intro h
  have hm : BankReach (MemoryBank.mkBank (List.replicate 2048 0) 0) := ⟨_, [], MemoryBank.init_eq, rfl⟩
  obtain ⟨l, h1, h2, -⟩ := (C112_step_ignored_partial _ hm 0 4 0 (some 2) (by decide)
    (by decide)).1
  have h3 : l.length = 4 := h2
  have := (h _ 0 4 2 l hm (by decide) h1 3 (by omega)).1
  revert this; decide

/-- A case of C112: with a step of 2 four words are read and four are stored. -/
example : ∃ m l, MemoryBank.init = .ok m ∧
    m.getPySlice ⟨some 2, some 6, some 2⟩ = .ok l ∧ l.length = 4 := ⟨_, _, rfl, rfl, rfl⟩

end H800
