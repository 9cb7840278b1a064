import Verif.Lemmas.Keys
import Verif.Props.Values

/-!
Property C218: the memory and the registers take ints, slices and names of registers for keys, nothing else.
-/

namespace H800

open Spec

/-- C218 as stated: a memory bank, a module, a group of registers, the set of groups and the tables of
registers, given a key that is no int, no slice and no string, raise and stay as they were. -/
def C218_statement : Prop := ∀ (k : PyKey), ¬ ProperKey k →
  (∀ m : MemoryBank, (∃ e, m.getK k = .error e) ∧
    ∀ F v, ∃ e, m.setK F k v = (m, .error e)) ∧
  (∀ m : MemoryModule, ∃ e, m.getK k = .error e) ∧
  (∀ g : RegisterGroup, (∃ e, g.getK k = .error e) ∧ ∀ r, ∃ e, g.setK k r = (g, .error e)) ∧
  (∀ s : Registers, (∃ e, s.getK k = .error e) ∧ ∀ g, ∃ e, s.setK k g = (s, .error e)) ∧
  (∃ e, registerNameK k = .error e) ∧ (∃ e, registerAliasK k = .error e) ∧
  ∃ e, registerNumberK k = .error e

/-- C218 is false of floats that are equal to ints: `registerName(24.0)` is a name, a group has a register
2.0, and `bank[1.0] = 9` stores. -/
theorem C218_refuted : ¬ C218_statement ∧
    registerNameK (.float (.fin 24)) = .ok (py "S0") ∧
    (⟨16, [(.num 2, 5)], 0⟩ : RegisterGroup).getK (.float (.fin 2)) = .ok 5 ∧
    (⟨[⟨⟨48, 3, .msb1, .msbLeft⟩⟩, ⟨⟨48, 4, .msb1, .msbLeft⟩⟩], 0⟩ : MemoryBank).setK exactOps
      (.float (.fin 1)) (.int 9) =
        (⟨[⟨⟨48, 3, .msb1, .msbLeft⟩⟩, ⟨⟨48, 9, .msb1, .msbLeft⟩⟩], 0⟩, .ok ()) := by
  have h : registerNameK (.float (.fin 24)) = .ok (py "S0") := by decide +kernel
  refine ⟨fun hs => ?_, h, by decide +kernel, by decide +kernel⟩
  obtain ⟨-, -, -, -, ⟨e, he⟩, -⟩ := hs (.float (.fin 24)) (fun hp => hp)
  rw [h] at he
  cases he

/-- C218: with ints, slices and strings these are the functions of the other properties. -/
theorem C218_agrees :
    (∀ (m : MemoryBank) a, m.getK (.int a) = (m.get a).map .inl) ∧
    (∀ (m : MemoryBank) s e, m.getK (.slice (.ofOpt s) (.ofOpt e)) = (m.getSlice s e).map .inr) ∧
    (∀ F (m : MemoryBank) a v, m.setK F (.int a) (.int v) = m.set a v) ∧
    (∀ F (m : MemoryBank) s e v, m.setK F (.slice (.ofOpt s) (.ofOpt e)) (.int v) = m.setSlice s e v) ∧
    (∀ (m : MemoryModule) n, m.getK (.int n) = (m.bank n).map .inl) ∧
    (∀ (m : MemoryModule) s e, m.getK (.slice (.int s) (.int e)) = (m.bankList (pyRange s e)).map .inr) ∧
    (∀ (g : RegisterGroup) n, g.getK (.int n) = g.getitem (.num n)) ∧
    (∀ (g : RegisterGroup) s, g.getK (.str s) = g.getitem (.name s)) ∧
    (∀ (g : RegisterGroup) s e, g.getK (.slice s e) = g.getitem .slice) ∧
    (∀ (g : RegisterGroup) n r, g.setK (.int n) r = g.setitem (.num n) r) ∧
    (∀ (g : RegisterGroup) s r, g.setK (.str s) r = g.setitem (.name s) r) ∧
    (∀ (g : RegisterGroup) s e r, g.setK (.slice s e) r = g.setitem .slice r) ∧
    (∀ (s : Registers) n, s.getK (.int n) = s.getitem (.num n)) ∧
    (∀ (s : Registers) a b, s.getK (.slice a b) = s.getitem .slice) ∧
    (∀ (s : Registers) n g, s.setK (.int n) g = s.setitem (.num n) g) ∧
    (∀ (s : Registers) a b g, s.setK (.slice a b) g = s.setitem .slice g) ∧
    (∀ n, registerNameK (.int n) = registerName n) ∧
    (∀ n, registerAliasK (.int n) = registerAlias n) ∧
    ∀ s, registerNumberK (.str s) = registerNumber s := by
  refine ⟨?_, ?_, ?_, ?_, ?_, ?_, fun _ _ => rfl, fun _ _ => rfl, fun _ _ _ => rfl, fun _ _ _ => rfl,
    fun _ _ _ => rfl, fun _ _ _ _ => rfl, fun _ _ => rfl, fun _ _ _ => rfl, fun _ _ _ => rfl,
    fun _ _ _ _ => rfl, fun _ => rfl, fun _ => rfl, fun _ => rfl⟩
  · intro m a
    show (m.get a >>= fun v => pure (Sum.inl v)) = _
    cases m.get a <;> rfl
  · intro m s e
    cases s with
    | none => rfl
    | some s =>
      cases e with
      | none => rfl
      | some e =>
        show (m.getList (pyRange s e) >>= fun v => pure (Sum.inr v)) =
          (m.getList (pyRange s e)).map .inr
        cases m.getList (pyRange s e) <;> rfl
  · intro F m a v
    exact (C214_agrees F).2.2.2.2.2.2.2.1 m a v
  · intro F m s e v
    exact (C214_agrees F).2.2.2.2.2.2.2.2 m s e v
  · intro m n
    show (m.bank n >>= fun v => pure (Sum.inl v)) = _
    cases m.bank n <;> rfl
  · intro m s e
    show (m.bankList (pyRange s e) >>= fun v => pure (Sum.inr v)) = _
    cases m.bankList (pyRange s e) <;> rfl

/-- C218: to a bank, a module, a group that is read, and the names of the registers, a float equal to an int
is that int. -/
theorem C218_equal_partial (k : PyKey) (n : Int) (h : Equals k n) :
    (∀ m : MemoryBank, m.getK k = m.getK (.int n) ∧ ∀ F v, m.setK F k v = m.setK F (.int n) v) ∧
    (∀ m : MemoryModule, m.getK k = m.getK (.int n)) ∧
    (∀ g : RegisterGroup, g.getK k = g.getK (.int n) ∧ ∀ r, g.setK k r = g.setK (.int n) r) ∧
    registerNameK k = registerNameK (.int n) ∧ registerAliasK k = registerAliasK (.int n) := by
  have hs := not_slice_equals h
  have hi : Equals (.int n) n := Or.inl rfl
  refine ⟨fun m => ⟨?_, fun F v => ?_⟩, fun m => ?_, fun g => ⟨?_, fun r => ?_⟩, ?_, ?_⟩
  · rw [bank_getK hs, bank_getK (not_slice_equals hi), ofInts_equals h, ofInts_equals hi]
  · rw [bank_setK hs, bank_setK (not_slice_equals hi), ofInts_equals h, ofInts_equals hi]
  · rw [module_getK hs, module_getK (not_slice_equals hi), ofInts_equals h, ofInts_equals hi]
  · rcases h with rfl | rfl
    · rfl
    · show (if Flt.lt (.fin (n : Rat)) (.fin 0) || Flt.le (.fin REGISTERS.length) (.fin (n : Rat)) then _
        else _) = if n < 0 ∨ n ≥ REGISTERS.length then _ else _
      have h1 : Flt.lt (.fin (n : Rat)) (.fin 0) = decide (n < 0) := by
        simpa using flt_lt_int n 0
      have h2 : Flt.le (.fin REGISTERS.length) (.fin (n : Rat)) = decide (n ≥ REGISTERS.length) := by
        have := flt_lt_int n REGISTERS.length
        simp only [Flt.le]
        rw [show ((REGISTERS.length : ℕ) : Rat) = (((REGISTERS.length : ℕ) : Int) : Rat) by norm_cast, this, ← decide_not]
        exact decide_eq_decide.2 not_lt
      rw [h1, h2]
      by_cases hn : n < 0 ∨ n ≥ REGISTERS.length
      · rw [if_pos hn, if_pos (by simpa using hn)]
        rfl
      · rw [if_neg hn, if_neg (by simpa using hn), ofInts_equals (Or.inr rfl)]
        rfl
  · rcases h with rfl | rfl <;> rfl
  · unfold registerNameK
    rw [nameOfK_equals h, nameOfK_equals hi]
    rcases h with rfl | rfl <;> rfl
  · unfold registerAliasK
    rw [nameOfK_equals h, nameOfK_equals hi, nameOfK_equals h, nameOfK_equals hi]
    rcases h with rfl | rfl <;> rfl

/-- C218: a bank or a module given a key equal to no int raises KeyError, or TypeError if the key cannot be
one of a dict; given a slice with a bound that is no int, not even a float equal to one, TypeError. A bank
stays as it was, whatever was to be stored. -/
theorem C218_memory_partial (k : PyKey) (m : MemoryBank) (M : MemoryModule) (F : FloatOps) (v : PyVal) :
    (¬ IsSlice k → (¬ ∃ n, Equals k n) → ∃ e, (HasHash k → e = .keyError) ∧ (¬ HasHash k → e = .typeError) ∧
      m.getK k = .error e ∧ m.setK F k v = (m, .error e) ∧ M.getK k = .error e) ∧
    ∀ s t, k = .slice s t → ¬ (IsInt s ∧ IsInt t) →
      m.getK k = .error .typeError ∧ m.setK F k v = (m, .error .typeError) ∧
      M.getK k = .error .typeError := by
  constructor
  · intro hs hn
    rw [bank_getK hs, bank_setK hs, module_getK hs]
    by_cases hh : HasHash k
    · rw [ofInts_hashable hn hh]
      exact ⟨_, fun _ => rfl, fun h => absurd hh h, rfl, rfl, rfl⟩
    · rw [ofInts_unhashable hh]
      exact ⟨_, fun h => absurd h hh, fun _ => rfl, rfl, rfl, rfl⟩
  · rintro s t rfl hi
    cases s with
    | int a =>
      cases t with
      | int b => exact absurd ⟨⟨a, rfl⟩, ⟨b, rfl⟩⟩ hi
      | _ => exact ⟨rfl, rfl, rfl⟩
    | _ => cases t <;> exact ⟨rfl, rfl, rfl⟩

/-- C218: a group of registers given a float equal to no int raises KeyError if the float lies between the
numbers of the registers or is no number, OverflowError if it is infinite, and ValueError otherwise; given a
key that cannot be compared with an int, TypeError. No key but a string stores a register: an int or a float
is a KeyError, as is any other key that a dict can have, and one that it cannot have is a TypeError. -/
theorem C218_group_partial (g : RegisterGroup) :
    (∀ x, (¬ ∃ n, Equals (.float x) n) →
      ((x = .nan ∨ ∃ q : Rat, x = .fin q ∧ 0 < q ∧ q < 32) → g.getK (.float x) = .error .keyError) ∧
      (Infinite (.float x) → g.getK (.float x) = .error .overflowError) ∧
      (∀ q : Rat, x = .fin q → q < 0 ∨ 32 < q → g.getK (.float x) = .error .valueError)) ∧
    (∀ l h, g.getK (.tuple l h) = .error .typeError) ∧
    (∀ h, g.getK (.object h) = .error .typeError) ∧
    ∀ k r, ¬ IsSlice k → (∀ s, k ≠ .str s) →
      (HasHash k → g.setK k r = (g, .error .keyError)) ∧
      (¬ HasHash k → g.setK k r = (g, .error .typeError)) := by
  refine ⟨fun x hx => ⟨?_, ?_, ?_⟩, fun _ _ => rfl, fun _ => rfl, fun k r hs hk => ?_⟩
  · rintro (rfl | ⟨q, rfl, h0, h1⟩)
    · rfl
    · show (if Flt.lt (.fin q) (.fin 0) || Flt.le (.fin REGISTERS.length) (.fin q) then _ else _) = _
      have h2 : (Flt.lt (.fin q) (.fin 0) || Flt.le (.fin REGISTERS.length) (.fin q)) = false := by
        have hl : ((REGISTERS.length : ℕ) : Rat) = 32 := by decide +kernel
        simp [Flt.lt, Flt.le, hl, h0.le, h1]
      rw [h2, if_neg (by simp), ofInts_hashable hx trivial]
      rfl
  · rintro (h | h) <;> cases h <;> rfl
  · rintro q rfl h
    show (if Flt.lt (.fin q) (.fin 0) || Flt.le (.fin REGISTERS.length) (.fin q) then _ else _) = _
    have h2 : (Flt.lt (.fin q) (.fin 0) || Flt.le (.fin REGISTERS.length) (.fin q)) = true := by
      have hl : ((REGISTERS.length : ℕ) : Rat) = 32 := by decide +kernel
      rcases h with h | h
      · simp [Flt.lt, h]
      · simp [Flt.lt, Flt.le, hl, h.le]
    rw [h2, if_pos rfl]
    rfl
  · cases k with
    | int n => exact ⟨fun _ => rfl, fun h => absurd trivial h⟩
    | float x => exact ⟨fun _ => rfl, fun h => absurd trivial h⟩
    | str s => exact absurd rfl (hk s)
    | slice s e => exact absurd ⟨s, e, rfl⟩ hs
    | tuple l b => cases b <;> simp [HasHash, RegisterGroup.setK, PyKey.hash]
    | object b => cases b <;> simp [HasHash, RegisterGroup.setK, PyKey.hash]

/-- C218: the set of groups takes no key but an int, not even a float equal to one: ValueError, or TypeError
for a tuple that is not of one element, which the message of the exception cannot be made of. -/
theorem C218_groups_partial (s : Registers) (k : PyKey) (g : Nat) (hk : ∀ n, k ≠ .int n) :
    (¬ WrongTuple k → s.getK k = .error .valueError ∧ s.setK k g = (s, .error .valueError)) ∧
    (WrongTuple k → s.getK k = .error .typeError ∧ s.setK k g = (s, .error .typeError)) := by
  cases k with
  | int n => exact absurd rfl (hk n)
  | tuple l b =>
    match l with
    | [] => exact ⟨fun h => absurd ⟨[], b, rfl, by simp⟩ h, fun _ => ⟨rfl, rfl⟩⟩
    | [v] =>
      refine ⟨fun _ => ⟨rfl, rfl⟩, ?_⟩
      rintro ⟨l, h, he, hl⟩
      cases he
      exact absurd rfl hl
    | v :: w :: l => exact ⟨fun h => absurd ⟨v :: w :: l, b, rfl, by simp⟩ h, fun _ => ⟨rfl, rfl⟩⟩
  | _ =>
    refine ⟨fun _ => ⟨rfl, rfl⟩, ?_⟩
    rintro ⟨l, h, he, -⟩
    cases he

/-- C218: a key equal to the number of no register has no name. The exception is a ValueError if its message
can be made, which takes a number that is not infinite, or a tuple of one: an infinite float is an
OverflowError and anything else a TypeError. -/
theorem C218_names_partial (k : PyKey) (hk : ∀ n, Equals k n → ¬ (0 ≤ n ∧ n < 32)) :
    (∀ v, Converted k v →
      (Infinite v → registerNameK k = .error .overflowError ∧ registerAliasK k = .error .overflowError) ∧
      (¬ Infinite v → (∀ t, v ≠ .other t) →
        registerNameK k = .error .valueError ∧ registerAliasK k = .error .valueError) ∧
      (∀ t, v = .other t → registerNameK k = .error .typeError ∧ registerAliasK k = .error .typeError)) ∧
    ((¬ ∃ v, Converted k v) →
      registerNameK k = .error .typeError ∧ registerAliasK k = .error .typeError) := by
  have hnone : nameOfK k REGISTERS = none ∧ nameOfK k ALIASES = none := by
    by_cases he : ∃ n, Equals k n
    · obtain ⟨n, hn⟩ := he
      have := hk n hn
      rw [nameOfK_equals hn, nameOfK_equals hn]
      constructor
      · simp only [nameOf, REGISTERS]
        repeat rw [if_neg (by omega)]
      · simp only [nameOf, ALIASES]
        repeat rw [if_neg (by omega)]
    · exact ⟨nameOfK_none he _, nameOfK_none he _⟩
  have hname : registerNameK k = (k.formatKeyD >>= fun _ => .error .valueError) := by
    unfold registerNameK
    rw [hnone.1]
    rfl
  have halias : registerAliasK k = (k.formatKeyD >>= fun _ => .error .valueError) := by
    unfold registerAliasK
    rw [hnone.1, hnone.2]
    rfl
  rw [hname, halias]
  constructor
  · intro v hv
    have hf : k.formatKeyD = PyKey.formatD v := by
      rcases hv with ⟨n, rfl, rfl⟩ | ⟨x, rfl, rfl⟩ | ⟨h, rfl⟩ <;> rfl
    rw [hf]
    refine ⟨?_, ?_, ?_⟩
    · rintro (rfl | rfl) <;> exact ⟨rfl, rfl⟩
    · intro hi ht
      cases v with
      | int n => exact ⟨rfl, rfl⟩
      | float x =>
        cases x with
        | inf => exact absurd (Or.inl rfl) hi
        | ninf => exact absurd (Or.inr rfl) hi
        | _ => exact ⟨rfl, rfl⟩
      | other t => exact absurd rfl (ht t)
    · rintro t rfl
      exact ⟨rfl, rfl⟩
  · intro hv
    cases k with
    | int n => exact absurd ⟨_, Or.inl ⟨n, rfl, rfl⟩⟩ hv
    | float x => exact absurd ⟨_, Or.inr (Or.inl ⟨x, rfl, rfl⟩)⟩ hv
    | tuple l b =>
      match l with
      | [] => exact ⟨rfl, rfl⟩
      | [v] => exact absurd ⟨v, Or.inr (Or.inr ⟨b, rfl⟩)⟩ hv
      | v :: w :: l => exact ⟨rfl, rfl⟩
    | _ => exact ⟨rfl, rfl⟩

/-- C218: nothing but a string has the number of a register: ValueError, or TypeError for a key that a dict
cannot have and for a tuple that is not of one element. -/
theorem C218_number_partial (k : PyKey) (hk : ∀ s, k ≠ .str s) :
    (HasHash k → ¬ WrongTuple k → registerNumberK k = .error .valueError) ∧
    (¬ HasHash k ∨ WrongTuple k → registerNumberK k = .error .typeError) := by
  cases k with
  | int n => exact ⟨fun _ _ => rfl, by rintro (h | ⟨l, h, he, -⟩); exacts [absurd trivial h, by cases he]⟩
  | float x => exact ⟨fun _ _ => rfl, by rintro (h | ⟨l, h, he, -⟩); exacts [absurd trivial h, by cases he]⟩
  | str s => exact absurd rfl (hk s)
  | slice s e => exact ⟨fun h => h.elim, fun _ => rfl⟩
  | object b =>
    cases b with
    | false => exact ⟨fun h => absurd h (by simp [HasHash]), fun _ => rfl⟩
    | true =>
      refine ⟨fun _ _ => rfl, ?_⟩
      rintro (h | ⟨l, h, he, -⟩)
      · exact absurd rfl h
      · cases he
  | tuple l b =>
    cases b with
    | false => exact ⟨fun h => absurd h (by simp [HasHash]), fun _ => rfl⟩
    | true =>
      match l with
      | [] => exact ⟨fun _ h => absurd ⟨[], true, rfl, by simp⟩ h, fun _ => rfl⟩
      | [v] =>
        refine ⟨fun _ _ => rfl, ?_⟩
        rintro (h | ⟨l, h, he, hl⟩)
        · exact absurd rfl h
        · cases he
          exact absurd rfl hl
      | v :: w :: l => exact ⟨fun _ h => absurd ⟨v :: w :: l, true, rfl, by simp⟩ h, fun _ => rfl⟩

/-! Cases: a float equal to an int, one between two ints, an infinite one, None, a list, and tuples. -/

example : Equals (.float (.fin 2)) 2 := Or.inr (by norm_num)

example : registerAliasK (.float (.fin 28)) = .ok (py "RAC") ∧
    registerNameK (.float (.fin (57 / 2))) = .error .valueError ∧
    registerNameK (.float .inf) = .error .overflowError ∧
    registerNameK (.object true) = .error .typeError ∧
    registerNameK (.tuple [.int 3] true) = .error .valueError ∧
    registerNameK (.tuple [.int 3, .int 4] true) = .error .typeError ∧
    registerNumberK (.int 3) = .error .valueError ∧
    registerNumberK (.tuple [] true) = .error .typeError ∧
    registerNumberK (.object false) = .error .typeError := by
  refine ⟨?_, ?_, ?_, ?_, ?_, ?_, ?_, ?_, ?_⟩ <;> decide +kernel

example : (⟨16, [(.num 2, 5)], 0⟩ : RegisterGroup).getK (.float (.fin (5 / 2))) = .error .keyError ∧
    (⟨16, [(.num 2, 5)], 0⟩ : RegisterGroup).getK (.float (.fin (-1 / 2))) = .error .valueError ∧
    (⟨16, [(.num 2, 5)], 0⟩ : RegisterGroup).getK (.float .ninf) = .error .overflowError ∧
    (⟨16, [(.num 2, 5)], 0⟩ : RegisterGroup).getK (.object true) = .error .typeError ∧
    (⟨16, [(.num 2, 5)], 0⟩ : RegisterGroup).setK (.float (.fin 2)) 7 =
      (⟨16, [(.num 2, 5)], 0⟩, .error .keyError) := by
  refine ⟨?_, ?_, ?_, ?_, ?_⟩ <;> decide +kernel

example : (⟨[], [], [(2, 7)], 0⟩ : Registers).getK (.int 2) = .ok 7 ∧
    (⟨[], [], [(2, 7)], 0⟩ : Registers).getK (.float (.fin 2)) = .error .valueError ∧
    (⟨[], [], [(2, 7)], 0⟩ : Registers).setK (.tuple [.int 1, .int 2] true) 0 =
      (⟨[], [], [(2, 7)], 0⟩, .error .typeError) := by
  refine ⟨?_, ?_, ?_⟩ <;> decide +kernel

end H800
