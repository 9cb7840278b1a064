import Verif.Lemmas.Protocol
import Verif.Props.BitFieldMore
import Verif.Props.Memory
import Verif.Props.Sharing

/-!
Properties C221 and C222: `x in obj` and `reversed(obj)`.
-/

namespace H800

open Spec BitField

/-- A register file obtained from `Registers(width)` by any history with assignments of groups. -/
def SharedReach (s : Registers) : Prop :=
  ∃ (w : Int) (s0 : Registers) (ops : List FileOp), Registers.init w = .ok s0 ∧
    s = ops.foldl FileOp.run s0

/-! ### C221 -/

/-- C221, the property as stated: `x in obj` tells whether `x` is one of the elements, which are what
the subscripts give: the bits, the registers, the groups, the numbers in memory, the banks. -/
def C221_statement : Prop :=
  (∀ (b : BitField) (v : PyVal), ∃ fuel r, b.contains v fuel = some (.ok r) ∧
    (r = true ↔ ∃ i x, b.getitem (.idx i) = .ok x ∧ v.eqInt x)) ∧
  (∀ base g, GroupReach base g → ∀ r, (g.contains (some r)).2 = .ok true ↔
    ∃ n, g.getitem (.num n) = .ok r) ∧
  (∀ s, SharedReach s → ∀ g, (s.contains (some g)).2 = .ok true ↔ ∃ n, s.getitem (.num n) = .ok g) ∧
  (∀ m, BankReach m → ∀ v, (m.contains (.value v)).2 = true ↔ ∃ a x, m.get a = .ok x ∧ v.eqInt x) ∧
  (∀ (m : MemoryModule) (k : Nat), ∃ fuel r, m.contains (some k) fuel = some (.ok r) ∧
    (r = true ↔ ∃ b, m.bank k = .ok b))

/-- C221, fields whose bits are numbered from 0: a bit that is there is found, otherwise ValueError is
raised. -/
theorem C221_zero_based_partial (b : BitField) (hn : b.numbering.code = 0 ∨ b.numbering.code = 2)
    (v : PyVal) (fuel : Nat) (hf : b.width < fuel) :
    ((∃ i x, b.getitem (.idx i) = .ok x ∧ v.eqInt x) → b.contains v fuel = some (.ok true)) ∧
    ((¬ ∃ i x, b.getitem (.idx i) = .ok x ∧ v.eqInt x) →
      b.contains v fuel = some (.error .valueError)) := by
  have hwt : ∀ i : Int, (0 ≤ b.wt i ∧ b.wt i < b.width) ↔ 0 ≤ i ∧ i < b.width := by
    intro i
    unfold wt
    rcases hn with hn | hn <;> rw [hn]
    · rfl
    · simp only [weightExp]; omega
  have hget : ∀ i : Int, b.getitem (.idx i) = if 0 ≤ i ∧ i < b.width then
      .ok (bitOf b.value (b.wt i).toNat) else .error .valueError := by
    intro i
    simp only [getitem]
    rw [getIndex_eq]
    by_cases h : 0 ≤ i ∧ i < b.width
    · rw [if_pos h, if_pos ((hwt i).2 h)]
    · rw [if_neg h, if_neg (fun h' => h ((hwt i).1 h'))]
  have hrun : b.contains v fuel = some (if ((List.range b.width).map fun (i : Nat) =>
      bitOf b.value (b.wt i).toNat).any v.eqInt then .ok true else .error .valueError) := by
    unfold BitField.contains
    apply seqContains_run
    · decide
    · intro j x hj
      simp only [List.getElem?_map, Option.map_eq_some_iff] at hj
      obtain ⟨i, hi, rfl⟩ := hj
      obtain ⟨hlt, hji⟩ := List.getElem?_eq_some_iff.1 hi
      simp only [List.length_range] at hlt
      simp only [List.getElem_range] at hji
      subst hji
      rw [Int.zero_add, hget, if_pos (by omega)]
    · rw [hget, if_neg (by simp)]
    · simpa using hf
  have hany : (((List.range b.width).map fun (i : Nat) =>
      bitOf b.value (b.wt i).toNat).any v.eqInt = true) ↔
      ∃ i x, b.getitem (.idx i) = .ok x ∧ v.eqInt x := by
    rw [List.any_eq_true]
    constructor
    · rintro ⟨x, hx, hv⟩
      obtain ⟨i, hi, rfl⟩ := List.mem_map.1 hx
      rw [List.mem_range] at hi
      exact ⟨i, _, by rw [hget, if_pos (by omega)], hv⟩
    · rintro ⟨i, x, hx, hv⟩
      rw [hget] at hx
      split at hx
      · rename_i h
        injection hx with hx
        obtain ⟨n, rfl⟩ := Int.eq_ofNat_of_zero_le h.1
        exact ⟨x, List.mem_map.2 ⟨n, List.mem_range.2 (by omega), hx⟩, hv⟩
      · cases hx
  rw [hrun]
  constructor
  · intro h
    rw [if_pos (hany.2 h)]
  · intro h
    rw [if_neg (fun h' => h (hany.1 h'))]

/-- C221, fields whose bits are numbered from 1: ValueError, whatever is looked for. -/
theorem C221_one_based_partial (b : BitField) (hn : b.numbering.code = 1 ∨ b.numbering.code = 3)
    (v : PyVal) (fuel : Nat) (hf : 0 < fuel) :
    b.contains v fuel = some (.error .valueError) := by
  unfold BitField.contains
  rw [seqContains_run v.eqInt _ .valueError (by decide) [] 0 (by simp) _ fuel (by simpa using hf)]
  · rfl
  · simp only [getitem, List.length_nil]
    rw [getIndex_eq, if_neg]
    unfold wt
    rcases hn with hn | hn <;> rw [hn] <;> simp only [weightExp] <;> omega

/-- C221, registers: ValueError, whatever is looked for. -/
theorem C221_register_partial (r : Register) (h : RegisterReach r) (v : PyVal) (fuel : Nat)
    (hf : 0 < fuel) : r.contains v fuel = some (.error .valueError) := by
  have hd := (registerReach_shape h).2
  exact C221_one_based_partial r.data (by rw [hd]; exact Or.inr rfl) v fuel hf

theorem range'_find_some {c n k : Nat} {p : Nat → Bool} (h1 : c ≤ k) (h2 : k < c + n) (hp : p k = true)
    (h : ∀ j, c ≤ j → j < k → p j = false) : (List.range' c n).find? p = some k := by
  induction n generalizing c with
  | zero => omega
  | succ n ih =>
    rw [List.range'_succ, List.find?_cons]
    by_cases hc : c = k
    · rw [hc, hp]
    · rw [h c (le_refl c) (by omega)]
      exact ih (by omega) (by omega) fun j hj hk => h j (by omega) hk

theorem range'_find_none {c n : Nat} {p : Nat → Bool} (h : ∀ j, c ≤ j → j < c + n → p j = false) :
    (List.range' c n).find? p = none := by
  rw [List.find?_eq_none]
  intro x hx
  rw [List.mem_range'_1] at hx
  rw [h x hx.1 hx.2]
  decide

/-- C221, memory banks: a word object is found if it lies from the cursor on; no number is ever found.
The search moves the cursor, behind the word or to the end, so the same search finds nothing the next
time. -/
theorem C221_bank_partial (m : MemoryBank) (hm : BankReach m) :
    (∀ a, m.current ≤ a → a < 2048 → m.contains (.word a) = ({ m with current := a + 1 }, true)) ∧
    (∀ a, ¬ (m.current ≤ a ∧ a < 2048) →
      m.contains (.word a) = ({ m with current := 2048 }, false)) ∧
    (∀ v, m.contains (.value v) = ({ m with current := 2048 }, false)) ∧
    (∀ x, ((m.contains x).1.contains x).2 = false) := by
  have hc := bankReach_cursor m hm
  obtain ⟨mem, vs, c, rfl, hl, hx⟩ := bankReach_rep hm
  have hcur : (MemoryBank.mkBank vs c).current = c := rfl
  rw [hcur] at *
  have key : ∀ x c', c' ≤ 2048 → (MemoryBank.mkBank vs c').contains x =
      match (List.range' c' (2048 - c')).find? x.isWord with
      | some a => (MemoryBank.mkBank vs (a + 1), true)
      | none => (MemoryBank.mkBank vs 2048, false) := by
    intro x c' hc'
    unfold MemoryBank.contains
    rw [bank_containsLoop x vs _ c' (by rw [MemoryBank.len_mk]; omega) (by omega), hl]
    generalize (List.range' c' (2048 - c')).find? x.isWord = q
    rcases q with _ | a <;> rfl
  have hyes : ∀ a c', c' ≤ a → a < 2048 →
      (MemoryBank.mkBank vs c').contains (.word a) = (MemoryBank.mkBank vs (a + 1), true) := by
    intro a c' h1 h2
    rw [key _ c' (by omega), range'_find_some h1 (by omega) (by simp [Sought.isWord])
      (fun j _ hj => by simp [Sought.isWord]; omega)]
  have hno : ∀ a c', c' ≤ 2048 → ¬ (c' ≤ a ∧ a < 2048) →
      (MemoryBank.mkBank vs c').contains (.word a) = (MemoryBank.mkBank vs 2048, false) := by
    intro a c' h1 h2
    rw [key _ c' h1, range'_find_none (fun j h3 h4 => by simp [Sought.isWord]; omega)]
  have hval : ∀ v c', c' ≤ 2048 →
      (MemoryBank.mkBank vs c').contains (.value v) = (MemoryBank.mkBank vs 2048, false) := by
    intro v c' h1
    rw [key _ c' h1, range'_find_none (p := (Sought.value v).isWord) (fun j _ _ => rfl)]
  refine ⟨fun a h1 h2 => hyes a c h1 h2, fun a h => hno a c hc h, fun v => hval v c hc, ?_⟩
  rintro (a | v)
  · by_cases h : c ≤ a ∧ a < 2048
    · rw [hyes a c h.1 h.2, hno a (a + 1) (by omega) (by omega)]
    · rw [hno a c hc h, hno a 2048 (le_refl _) (by omega)]
  · rw [hval v c hc, hval v 2048 (le_refl _)]

/-- C221, register groups: a register is found if its number is not below the cursor, which is then moved
behind it; otherwise it is moved to the end. -/
theorem C221_group_partial (base : Nat) (g : RegisterGroup) (hg : GroupReach base g) :
    (∀ n r, g.current ≤ n → n < 32 → g.getitem (.num n) = .ok r →
      g.contains (some r) = ({ g with current := n + 1 }, .ok true)) ∧
    (∀ x, (∀ n r, g.current ≤ n → n < 32 → g.getitem (.num n) = .ok r → x ≠ some r) →
      g.contains x = ({ g with current := 32 }, .ok false)) := by
  have hi := groupReach_inv hg
  have hle := hi.1
  have hget : ∀ n : Nat, n < 32 → g.getitem (.num n) = .ok (base + n) := by
    intro n hn
    rw [groupInv_getitem hi, regIndex_nat hn]
  have key : ∀ x, g.contains x =
      match (List.range' g.current (32 - g.current)).find? (fun n => x = some (base + n)) with
      | some n => ({ g with current := n + 1 }, .ok true)
      | none => ({ g with current := 32 }, .ok false) := by
    intro x
    have hlen : REGISTERS.length = 32 := by decide
    unfold RegisterGroup.contains
    rw [hlen]
    exact group_containsLoop x _ g hi (by omega)
  constructor
  · intro n r h1 h2 h3
    rw [hget n h2] at h3
    injection h3 with h3
    subst h3
    rw [key, range'_find_some h1 (by omega) (by simp) (fun j _ hj => by simp; omega)]
  · intro x h
    rw [key, range'_find_none (fun j h1 h2 => by
      have := h j _ h1 (by omega) (hget j (by omega))
      simpa using this)]

theorem fileInv_of {s : Registers} (h : SharedReach s) : ∃ ref, FileInv s ref := by
  obtain ⟨w, s0, ops, h0, rfl⟩ := h
  have hw : w = 16 ∨ w = 24 := by
    by_contra hw
    rw [C24_bad_width w hw] at h0
    cases h0
  rw [file_init w hw] at h0
  injection h0 with h0
  subst h0
  have : ∃ ref, FileInv (canon w.toNat (fun _ _ => 0) (fun _ => 0) 0) ref := by
    refine ⟨fun n => n, by simp [canon], fun n hn => ?_⟩
    show dget ((List.range 8).map fun (k : Nat) => ((k : Int), k)) (n : Int) = some n
    rw [dget_map_range (fun (i : Nat) => (i : Int)) (fun i => i) (by intro i j h; simpa using h),
      if_pos hn]
  generalize canon w.toNat (fun _ _ => 0) (fun _ => 0) 0 = s at this
  induction ops generalizing s with
  | nil => exact this
  | cons op ops ih =>
    apply ih
    obtain ⟨ref, hc, hs⟩ := this
    cases op with
    | op o =>
      obtain ⟨h1, h2⟩ := regOp_slots s o
      exact ⟨ref, h2 hc, fun n hn => by
        show dget (o.run s).slots _ = _
        rw [h1]; exact hs n hn⟩
    | assign a b =>
      cases hb : s.getitem b with
      | error e => rw [groupAssign_error hb]; exact ⟨ref, hc, hs⟩
      | ok g =>
        rw [groupAssign_ok hb]
        cases a with
        | slice => exact ⟨ref, hc, hs⟩
        | other => exact ⟨ref, hc, hs⟩
        | num k =>
          refine ⟨fun n => if (n : Int) = k then g else ref n, hc, fun n hn => ?_⟩
          show dget (dset s.slots k g) _ = _
          by_cases hk : (n : Int) = k
          · simp only [if_pos hk]
            rw [hk, dget_dset_self]
          · simp only [if_neg hk]
            rw [dget_dset_ne _ _ _ _ (fun h => hk h.symm)]
            exact hs n hn

theorem file_getitem {s : Registers} {ref : Nat → Nat} (h : FileInv s ref) (n : Nat) (hn : n < 8) :
    s.getitem (.num n) = .ok (ref n) := by
  have hN : ((Registers.NUM_GROUPS : Nat) : Int) = 8 := rfl
  simp only [Registers.getitem]
  rw [if_neg (by omega)]
  simp only [dgetE, h.2 n hn]

/-- C221, the register file: a group is found at its first place from the cursor on, which is then moved
behind it; otherwise it is moved to the end. -/
theorem C221_file_partial (s : Registers) (hs : SharedReach s) :
    (∀ n g, s.current ≤ n → n < 8 → s.getitem (.num n) = .ok g →
      (∀ j, s.current ≤ j → j < n → s.getitem (.num j) ≠ .ok g) →
      s.contains (some g) = ({ s with current := n + 1 }, .ok true)) ∧
    (∀ x, (∀ n g, s.current ≤ n → n < 8 → s.getitem (.num n) = .ok g → x ≠ some g) →
      s.contains x = ({ s with current := 8 }, .ok false)) := by
  obtain ⟨ref, hi⟩ := fileInv_of hs
  have hle := hi.1
  have key : ∀ x, s.contains x =
      match (List.range' s.current (8 - s.current)).find? (fun n => x = some (ref n)) with
      | some n => ({ s with current := n + 1 }, .ok true)
      | none => ({ s with current := 8 }, .ok false) := by
    intro x
    unfold Registers.contains Registers.NUM_GROUPS
    exact file_containsLoop x _ s hi (by omega)
  constructor
  · intro n g h1 h2 h3 h4
    rw [file_getitem hi n h2] at h3
    injection h3 with h3
    subst h3
    rw [key, range'_find_some h1 (by omega) (by simp) (fun j hj hk => by
      have := h4 j hj hk
      rw [file_getitem hi j (by omega)] at this
      simp only [ne_eq, Except.ok.injEq] at this
      simpa using fun e => this e.symm)]
  · intro x h
    rw [key, range'_find_none (fun j h1 h2 => by
      have := h j _ h1 (by omega) (file_getitem hi j (by omega))
      simpa using this)]

/-- C221, memory modules: a bank of the module is found; otherwise KeyError is raised. -/
theorem C221_module_partial (m : MemoryModule) (x : Option Nat) (fuel : Nat)
    (hf : m.banks.length < fuel) :
    m.contains x fuel = some (if ∃ k < m.banks.length, x = some k then .ok true
      else .error .keyError) := by
  unfold MemoryModule.contains
  rw [seqContains_run _ _ .keyError (by decide) ((List.range m.banks.length).map fun (i : Nat) =>
    (i : Int)) 0 ?_ ?_ fuel (by simpa using hf)]
  · congr 1
    refine if_congr ?_ rfl rfl
    rw [List.any_eq_true]
    constructor
    · rintro ⟨i, hi, hx⟩
      obtain ⟨k, hk, rfl⟩ := List.mem_map.1 hi
      exact ⟨k, List.mem_range.1 hk, by simpa using hx⟩
    · rintro ⟨k, hk, hx⟩
      exact ⟨k, List.mem_map.2 ⟨k, List.mem_range.2 hk, rfl⟩, by simpa using hx⟩
  · intro j y hj
    simp only [List.getElem?_map, Option.map_eq_some_iff] at hj
    obtain ⟨i, hi, rfl⟩ := hj
    obtain ⟨hlt, hji⟩ := List.getElem?_eq_some_iff.1 hi
    simp only [List.length_range] at hlt
    simp only [List.getElem_range] at hji
    subst hji
    have : m.bank (0 + (j : Int)) = .ok m.banks[j] := by
      unfold MemoryModule.bank
      rw [if_neg (by omega)]
      have : (0 + (j : Int)).toNat = j := by omega
      rw [this, List.getElem?_eq_getElem hlt]
    rw [this]
    simp
  · have : m.bank (0 + (m.banks.length : Int)) = .error .keyError := by
      unfold MemoryModule.bank
      rw [if_neg (by omega)]
      have : (0 + (m.banks.length : Int)).toNat = m.banks.length := by omega
      rw [this, List.getElem?_eq_none (le_refl _)]
    simp only [List.length_map, List.length_range, this]
    rfl

/-- C221 is false: 0 is in every word of a new bank but not in the bank. -/
theorem C221_refuted : ¬ C221_statement := by
  rintro ⟨-, -, -, h, -⟩
  have hm : BankReach (MemoryBank.mkBank (List.replicate 2048 0) 0) :=
    ⟨_, [], MemoryBank.init_eq, rfl⟩
  have h1 := (h _ hm (.int 0)).2 ⟨0, 0, by decide +kernel, rfl⟩
  rw [(C221_bank_partial _ hm).2.2.1] at h1
  cases h1

/-- Two searches for the same bit, and one for a bit that is not there. -/
example : (⟨4, 5, .lsb0, .msbLeft⟩ : BitField).contains (.int 1) 5 = some (.ok true) ∧
    (⟨4, 5, .lsb0, .msbLeft⟩ : BitField).contains (.float (.fin 0)) 5 = some (.ok true) ∧
    (⟨4, 15, .lsb0, .msbLeft⟩ : BitField).contains (.int 0) 5 = some (.error .valueError) := by
  decide +kernel

/-- The second search of a new bank for its first word fails. -/
example : let m := MemoryBank.mkBank (List.replicate 2048 0) 0
    (m.contains (.word 0)).2 = true ∧ ((m.contains (.word 0)).1.contains (.word 0)).2 = false :=
  have h := C221_bank_partial (MemoryBank.mkBank (List.replicate 2048 0) 0)
    ⟨_, [], MemoryBank.init_eq, rfl⟩
  ⟨by rw [h.1 0 (Nat.zero_le _) (by decide)], h.2.2.2 _⟩

/-- A new group: register 3, then register 2, then register 3 again. -/
example : let g : RegisterGroup := ⟨16, dictOf 0, 0⟩
    g.contains (some 3) = ({ g with current := 4 }, .ok true) ∧
    (g.contains (some 3)).1.contains (some 2) = ({ g with current := 32 }, .ok false) := by
  decide +kernel

/-- A register file with group 1 in place of group 5. -/
example : ∃ s, SharedReach s ∧ s.contains (some 5) = ({ s with current := 8 }, .ok false) ∧
    s.contains (some 1) = ({ s with current := 2 }, .ok true) :=
  ⟨_, ⟨16, _, [.assign (.num 5) (.num 1)], file_init 16 (Or.inl rfl), rfl⟩, by decide +kernel,
    by decide +kernel⟩

/-! ### C222 -/

/-- C222, the property as stated: `reversed(obj)` delivers all elements, the last first, and ends. -/
def C222_statement : Prop :=
  (∀ b : BitField, ∃ xs, b.reversed = (xs, none) ∧ xs.length = b.width) ∧
  (∀ r, RegisterReach r → ∃ xs, r.reversed = (xs, none) ∧ xs.length = r.width) ∧
  (∀ base g, GroupReach base g → ∃ xs, g.reversed = (xs, none) ∧
    xs.map Except.ok = ((List.range 32).map fun (n : Nat) => g.getitem (.num n)).reverse) ∧
  (∀ s, SharedReach s → ∃ xs, s.reversed = (xs, none) ∧
    xs.map Except.ok = ((List.range 8).map fun (n : Nat) => s.getitem (.num n)).reverse) ∧
  (∀ m, BankReach m → ∃ xs, m.reversed = (xs, none) ∧
    xs.map Except.ok = ((List.range 2048).map fun (n : Nat) => m.get n).reverse) ∧
  (∀ m : MemoryModule, m.reversed = (m.banks.reverse, none))

/-- C222 for fields whose bits are numbered from 0. -/
theorem C222_zero_based_partial (b : BitField) (hn : b.numbering.code = 0 ∨ b.numbering.code = 2) :
    b.reversed = (((List.range b.width).map fun (i : Nat) =>
      bitOf b.value (weightExp b.numbering.code b.width i).toNat).reverse, none) := by
  unfold BitField.reversed
  apply revIter_all
  intro i hi
  simp only [getitem]
  rw [getIndex_eq, if_pos]
  · rfl
  · unfold wt
    rcases hn with hn | hn <;> rw [hn] <;> simp only [weightExp] <;> omega

/-- C222 for fields whose bits are numbered from 1: bit `width` is left out, the bits below it are
delivered down to bit 1, then ValueError is raised. -/
theorem C222_one_based_partial (b : BitField) (hn : b.numbering.code = 1 ∨ b.numbering.code = 3)
    (hw : 0 < b.width) :
    b.reversed = (((List.range' 1 (b.width - 1)).map fun (i : Nat) =>
      bitOf b.value (weightExp b.numbering.code b.width i).toNat).reverse, some .valueError) := by
  unfold BitField.reversed
  have h0 : (fun i => b.getitem (.idx i)) (0 : Nat) = .error .valueError := by
    simp only [getitem]
    rw [getIndex_eq, if_neg]
    unfold wt
    rcases hn with hn | hn <;> rw [hn] <;> simp only [weightExp] <;> omega
  have h1 := revIter_upto (fun i => b.getitem (.idx i)) (fun i =>
    bitOf b.value (weightExp b.numbering.code b.width i).toNat) 1 (b.width - 1) (by
      intro i hi hj
      simp only [getitem]
      rw [getIndex_eq, if_pos]
      · rfl
      · unfold wt
        rcases hn with hn | hn <;> rw [hn] <;> simp only [weightExp] <;> omega)
  rw [show 1 + (b.width - 1) = b.width by omega, revIter_stop _ .valueError (by decide) 0 h0] at h1
  rw [h1, List.append_nil]

/-- C222 for registers: bit 16 or 24 is left out, and ValueError is raised after bit 1. -/
theorem C222_register_partial (r : Register) (h : RegisterReach r) :
    r.reversed = (((List.range' 1 (r.width - 1)).map fun (i : Nat) =>
      bitOf r.value (weightExp 3 r.width i).toNat).reverse, some .valueError) := by
  obtain ⟨hw, hd⟩ := registerReach_shape h
  have h1 := C222_one_based_partial r.data (by rw [hd]; exact Or.inr rfl) (by rw [hd]; simp; omega)
  have h2 : r.reversed = r.data.reversed := by
    have hwd : r.data.width = r.width := by rw [hd]
    unfold Register.reversed BitField.reversed Register.len
    rw [hwd]
    rfl
  rw [h2, h1, hd]
  rfl

/-- C222 for memory banks: all the numbers in memory, the last first, whatever the cursor. -/
theorem C222_bank_partial (m : MemoryBank) (hm : BankReach m) :
    ∃ xs, m.reversed = (xs, none) ∧
      xs.map Except.ok = ((List.range 2048).map fun (n : Nat) => m.get n).reverse := by
  obtain ⟨mem, hrep⟩ := bankReach_rep hm
  have hlen : m.len = 2048 := by
    obtain ⟨vs, c, rfl, hl, -⟩ := hrep
    rw [MemoryBank.len_mk, hl]
  have hget : ∀ i : Nat, i < 2048 → m.get i = .ok (mem i) := fun i hi =>
    (MemoryBank.rep_get hrep i (by omega) (by omega)).1
  refine ⟨((List.range 2048).map fun (i : Nat) => mem i).reverse, ?_, ?_⟩
  · unfold MemoryBank.reversed
    rw [hlen]
    exact revIter_all m.get (fun i => mem i) 2048 hget
  · rw [List.map_reverse, List.map_map]
    refine congrArg List.reverse (List.map_congr_left fun i hi => ?_)
    rw [hget i (List.mem_range.1 hi)]
    rfl

/-- C222 for memory modules. -/
theorem C222_module_partial (m : MemoryModule) : m.reversed = (m.banks.reverse, none) := by
  unfold MemoryModule.reversed MemoryModule.len
  have hb : ∀ (i : Nat) (hi : i < m.banks.length), m.bank i = .ok m.banks[i] := by
    intro i hi
    unfold MemoryModule.bank
    rw [if_neg (by omega)]
    simp [hi]
  rcases hbs : m.banks with _ | ⟨b0, bs⟩
  · rfl
  · rw [← hbs]
    rw [revIter_all m.bank (fun i => m.banks[i]?.getD b0) m.banks.length (fun i hi => by
      rw [hb i hi, List.getElem?_eq_getElem hi]
      rfl)]
    congr 2
    apply List.ext_getElem
    · simp
    · intro i h1 h2
      simp [List.getElem?_eq_getElem h2]

/-- Is a name assigned in the history of a group? -/
def assignsName : GroupOp → Prop
  | .setitem (.name _) _ => True
  | _ => False

theorem group_run_len (g : RegisterGroup) (op : GroupOp) :
    (¬ assignsName op → (op.run g).regs = g.regs) ∧ g.regs.length ≤ (op.run g).regs.length := by
  have hnext : ∀ g : RegisterGroup, g.next.1.regs = g.regs := by
    intro g
    unfold RegisterGroup.next
    split
    · rfl
    · dsimp only
      split <;> rfl
  have hloop : ∀ fuel (g : RegisterGroup), (RegisterGroup.loop fuel g).1.regs = g.regs := by
    intro fuel
    induction fuel with
    | zero => intro g; rfl
    | succ fuel ih =>
      intro g
      rw [RegisterGroup.loop]
      have h1 := hnext g
      generalize g.next = q at h1 ⊢
      rcases q with ⟨g', e | o⟩
      · exact h1
      · rcases o with _ | r
        · exact h1
        · dsimp only at h1 ⊢
          have h2 := ih g'
          generalize RegisterGroup.loop fuel g' = q at h2 ⊢
          rcases q with ⟨g'', e | u⟩
          · exact h2.trans h1
          · exact h2.trans h1
  cases op with
  | next => exact ⟨fun _ => hnext g, le_of_eq (congrArg List.length (hnext g)).symm⟩
  | forLoop => exact ⟨fun _ => hloop _ g, le_of_eq (congrArg List.length (hloop _ g)).symm⟩
  | clear =>
    have h : (GroupOp.run g .clear).regs = g.regs := by
      have h1 := hloop (REGISTERS.length + 1) g
      simp only [GroupOp.run, RegisterGroup.clear, RegisterGroup.forLoop]
      generalize RegisterGroup.loop (REGISTERS.length + 1) g = q at h1 ⊢
      rcases q with ⟨g', e | u⟩ <;> exact h1
    exact ⟨fun _ => h, le_of_eq (congrArg List.length h).symm⟩
  | setitem k r =>
    cases k with
    | slice => exact ⟨fun _ => rfl, le_refl _⟩
    | num n => exact ⟨fun _ => rfl, le_refl _⟩
    | name s =>
      refine ⟨fun h => absurd trivial h, ?_⟩
      show g.regs.length ≤ (dset g.regs (.name s) r).length
      rw [dset_length]
      split <;> omega

/-- Names in the dict make it longer than 32. -/
theorem group_names (g : RegisterGroup) (ops : List GroupOp) (h : 32 ≤ g.regs.length)
    (hn : ∀ s, (dget g.regs (.name s)).isSome → 33 ≤ g.regs.length)
    (hop : ∃ op ∈ ops, assignsName op) : 33 ≤ (ops.foldl GroupOp.run g).regs.length := by
  have hmono : ∀ (ops : List GroupOp) (g : RegisterGroup),
      g.regs.length ≤ (ops.foldl GroupOp.run g).regs.length := by
    intro ops
    induction ops with
    | nil => intro g; exact le_refl _
    | cons op ops ih => intro g; exact (group_run_len g op).2.trans (ih _)
  induction ops generalizing g with
  | nil => obtain ⟨op, h, -⟩ := hop; cases h
  | cons op ops ih =>
    by_cases ho : assignsName op
    · refine le_trans ?_ (hmono ops (op.run g))
      cases op with
      | next => exact ho.elim
      | forLoop => exact ho.elim
      | clear => exact ho.elim
      | setitem k r =>
        cases k with
        | slice => exact ho.elim
        | num n => exact ho.elim
        | name s =>
          show 33 ≤ (dset g.regs (.name s) r).length
          rw [dset_length]
          split
          · rename_i hs; exact hn s hs
          · omega
    · have heq := (group_run_len g op).1 ho
      refine ih (op.run g) (by rw [heq]; exact h) (by rw [heq]; exact hn) ?_
      obtain ⟨o, ho1, ho2⟩ := hop
      rcases List.mem_cons.1 ho1 with rfl | ho1
      · exact absurd ho2 ho
      · exact ⟨o, ho1, ho2⟩

/-- C222 for register groups: right if no name was ever assigned; otherwise ValueError at once. -/
theorem C222_group_partial (heap heap' : List Register) (w : Int) (g0 : RegisterGroup)
    (h0 : RegisterGroup.init heap w = .ok (heap', g0)) (ops : List GroupOp) :
    ((¬ ∃ s r, GroupOp.setitem (.name s) r ∈ ops) →
      ∃ xs, (ops.foldl GroupOp.run g0).reversed = (xs, none) ∧ xs.map Except.ok =
        ((List.range 32).map fun (n : Nat) =>
          (ops.foldl GroupOp.run g0).getitem (.num n)).reverse) ∧
    ((∃ s r, GroupOp.setitem (.name s) r ∈ ops) →
      (ops.foldl GroupOp.run g0).reversed = ([], some .valueError)) := by
  have hi := groupReach_inv ⟨heap, heap', w, g0, ops, h0, rfl, rfl⟩
  have hw : w = 16 ∨ w = 24 := by
    by_contra hw
    rw [groupLoop_bad w hw] at h0
    cases h0
  rw [group_init w hw] at h0
  injection h0 with h0
  injection h0 with _ h0
  have hregs : g0.regs = dictOf heap.length := by rw [← h0]
  have hlen0 : g0.regs.length = 32 := by rw [hregs]; simp [dictOf]
  have hname0 : ∀ s, (dget g0.regs (.name s)).isSome → 33 ≤ g0.regs.length := by
    intro s hs
    rw [hregs, dictOf, dget_map_none _ (fun (n : Nat) => GKey.num n) _ _ (by simp)] at hs
    cases hs
  have hiff : (∃ s r, GroupOp.setitem (.name s) r ∈ ops) ↔ ∃ op ∈ ops, assignsName op := by
    constructor
    · rintro ⟨s, r, h⟩
      exact ⟨_, h, trivial⟩
    · rintro ⟨op, h1, h2⟩
      cases op with
      | next => exact h2.elim
      | forLoop => exact h2.elim
      | clear => exact h2.elim
      | setitem k r =>
        cases k with
        | slice => exact h2.elim
        | num n => exact h2.elim
        | name s => exact ⟨s, r, h1⟩
  rw [hiff]
  constructor
  · intro hno
    have hregs' : ∀ (ops : List GroupOp) (g : RegisterGroup), (¬ ∃ op ∈ ops, assignsName op) →
        (ops.foldl GroupOp.run g).regs = g.regs := by
      intro ops
      induction ops with
      | nil => intro g _; rfl
      | cons op ops ih =>
        intro g hno
        refine (ih (op.run g) fun ⟨o, h1, h2⟩ => hno ⟨o, List.mem_cons_of_mem _ h1, h2⟩).trans ?_
        exact (group_run_len g op).1 fun h => hno ⟨op, List.mem_cons_self, h⟩
    have hlen : (ops.foldl GroupOp.run g0).len = 32 := by
      unfold RegisterGroup.len
      rw [hregs' ops g0 hno, hlen0]
    have hget : ∀ i : Nat, i < 32 →
        (fun i : Int => (ops.foldl GroupOp.run g0).getitem (.num i)) i = .ok (heap.length + i) := by
      intro i hi'
      show (ops.foldl GroupOp.run g0).getitem (.num i) = _
      rw [groupInv_getitem hi, regIndex_nat hi']
    refine ⟨((List.range 32).map fun (i : Nat) => heap.length + i).reverse, ?_, ?_⟩
    · unfold RegisterGroup.reversed
      rw [hlen]
      exact revIter_all _ (fun i => heap.length + i) 32 hget
    · rw [List.map_reverse, List.map_map]
      congr 1
      refine List.map_congr_left fun i hi' => ?_
      exact (hget i (List.mem_range.1 hi')).symm
  · intro hyes
    have hlen := group_names g0 ops (by omega) hname0 hyes
    unfold RegisterGroup.reversed
    obtain ⟨k, hk⟩ : ∃ k, (ops.foldl GroupOp.run g0).len = k + 1 ∧ 32 ≤ k := by
      unfold RegisterGroup.len
      exact ⟨(ops.foldl GroupOp.run g0).regs.length - 1, by omega, by omega⟩
    rw [hk.1]
    apply revIter_stop _ _ (by decide)
    show (ops.foldl GroupOp.run g0).getitem (.num k) = _
    rw [groupInv_getitem hi]
    simp only [regIndex]
    rw [if_neg (by omega)]

/-- Does an operation put a group into the file at a number other than 0 to 7? -/
def assignsOther : FileOp → Prop
  | .assign (.num k) b => ¬ (0 ≤ k ∧ k < 8) ∧ groupIndex b ≠ none
  | _ => False

theorem file_getitem_none {s : Registers} {ref : Nat → Nat} (h : FileInv s ref) (b : FKey) :
    (∃ g, s.getitem b = .ok g) ↔ groupIndex b ≠ none := by
  have hN : ((Registers.NUM_GROUPS : Nat) : Int) = 8 := rfl
  cases b with
  | slice => simp [Registers.getitem, groupIndex]
  | other => simp [Registers.getitem, groupIndex]
  | num k =>
    by_cases hk : 0 ≤ k ∧ k < 8
    · obtain ⟨n, rfl⟩ := Int.eq_ofNat_of_zero_le hk.1
      rw [file_getitem h n (by omega), groupIndex_num (by omega)]
      simp
    · simp only [Registers.getitem, groupIndex]
      rw [if_pos (by omega), if_neg hk]
      simp

/-- C222 for the register file: right if groups were assigned to the numbers 0 to 7 only; otherwise
ValueError at once. -/
theorem C222_file_partial (w : Int) (s0 : Registers) (h0 : Registers.init w = .ok s0)
    (ops : List FileOp) :
    ((¬ ∃ k b, FileOp.assign (.num k) b ∈ ops ∧ ¬ (0 ≤ k ∧ k < 8) ∧ groupIndex b ≠ none) →
      ∃ xs, (ops.foldl FileOp.run s0).reversed = (xs, none) ∧ xs.map Except.ok =
        ((List.range 8).map fun (n : Nat) =>
          (ops.foldl FileOp.run s0).getitem (.num n)).reverse) ∧
    ((∃ k b, FileOp.assign (.num k) b ∈ ops ∧ ¬ (0 ≤ k ∧ k < 8) ∧ groupIndex b ≠ none) →
      (ops.foldl FileOp.run s0).reversed = ([], some .valueError)) := by
  obtain ⟨ref, hi⟩ := fileInv_of ⟨w, s0, ops, h0, rfl⟩
  obtain ⟨ref0, hi0⟩ := fileInv_of ⟨w, s0, [], h0, rfl⟩
  change FileInv s0 ref0 at hi0
  have hw : w = 16 ∨ w = 24 := by
    by_contra hw
    rw [C24_bad_width w hw] at h0
    cases h0
  rw [file_init w hw] at h0
  injection h0 with h0
  have hslots : s0.slots = (List.range 8).map fun (k : Nat) => ((k : Int), k) := by rw [← h0]; rfl
  have hlen0 : s0.slots.length = 8 := by rw [hslots]; rfl
  have hother0 : ∀ k : Int, ¬ (0 ≤ k ∧ k < 8) → (dget s0.slots k).isSome → 9 ≤ s0.slots.length := by
    intro k hk hs
    exfalso
    rw [hslots] at hs
    by_cases h1 : 0 ≤ k
    · obtain ⟨n, rfl⟩ := Int.eq_ofNat_of_zero_le h1
      rw [dget_map_range (fun (i : Nat) => (i : Int)) (fun i => i) (by intro i j h; simpa using h),
        if_neg (by omega)] at hs
      cases hs
    · rw [dget_map_none _ (fun (n : Nat) => (n : Int)) _ _ (by intro n hn; omega)] at hs
      cases hs
  have hiff : (∃ k b, FileOp.assign (.num k) b ∈ ops ∧ ¬ (0 ≤ k ∧ k < 8) ∧ groupIndex b ≠ none) ↔
      ∃ op ∈ ops, assignsOther op := by
    constructor
    · rintro ⟨k, b, h, h'⟩
      exact ⟨_, h, h'⟩
    · rintro ⟨op, h1, h2⟩
      cases op with
      | op o => exact h2.elim
      | assign a b =>
        cases a with
        | slice => exact h2.elim
        | other => exact h2.elim
        | num k => exact ⟨k, b, h1, h2⟩
  rw [hiff]
  -- one step
  have hstep : ∀ (op : FileOp) (s : Registers) (ref : Nat → Nat), FileInv s ref →
      (∃ ref', FileInv (op.run s) ref') ∧
      s.slots.length ≤ (op.run s).slots.length ∧
      (¬ assignsOther op → (op.run s).slots.length = s.slots.length ∧
        ∀ k : Int, ¬ (0 ≤ k ∧ k < 8) → dget (op.run s).slots k = dget s.slots k) ∧
      (assignsOther op → (∀ k : Int, ¬ (0 ≤ k ∧ k < 8) → (dget s.slots k).isSome →
        9 ≤ s.slots.length) → 8 ≤ s.slots.length → 9 ≤ (op.run s).slots.length) := by
    intro op s ref h
    cases op with
    | op o =>
      obtain ⟨h1, h2⟩ := regOp_slots s o
      have h1' : (FileOp.run s (.op o)).slots = s.slots := h1
      rw [h1']
      exact ⟨⟨ref, h2 h.1, fun n hn => by rw [h1']; exact h.2 n hn⟩, le_refl _,
        fun _ => ⟨rfl, fun _ _ => rfl⟩, fun h => h.elim⟩
    | assign a b =>
      cases hb : s.getitem b with
      | error e =>
        rw [groupAssign_error hb]
        refine ⟨⟨ref, h⟩, le_refl _, fun _ => ⟨rfl, fun _ _ => rfl⟩, fun ho => ?_⟩
        cases a with
        | slice => exact ho.elim
        | other => exact ho.elim
        | num k =>
          obtain ⟨g, hg⟩ := (file_getitem_none h b).2 ho.2
          rw [hg] at hb
          cases hb
      | ok g =>
        rw [groupAssign_ok hb]
        cases a with
        | slice => exact ⟨⟨ref, h⟩, le_refl _, fun _ => ⟨rfl, fun _ _ => rfl⟩, fun ho => ho.elim⟩
        | other => exact ⟨⟨ref, h⟩, le_refl _, fun _ => ⟨rfl, fun _ _ => rfl⟩, fun ho => ho.elim⟩
        | num k =>
          have hsl : (s.setitem (.num k) g).1.slots = dset s.slots k g := rfl
          rw [hsl, dset_length]
          refine ⟨⟨fun n => if (n : Int) = k then g else ref n, h.1, fun n hn => ?_⟩, ?_, ?_, ?_⟩
          · rw [hsl]
            by_cases hk : (n : Int) = k
            · simp only [if_pos hk]
              rw [hk, dget_dset_self]
            · simp only [if_neg hk]
              rw [dget_dset_ne _ _ _ _ (fun h => hk h.symm)]
              exact h.2 n hn
          · split <;> omega
          · intro ho
            have hk : 0 ≤ k ∧ k < 8 := by
              by_contra hk
              exact ho ⟨hk, (file_getitem_none h b).1 ⟨g, hb⟩⟩
            obtain ⟨n, rfl⟩ := Int.eq_ofNat_of_zero_le hk.1
            refine ⟨?_, fun j hj => dget_dset_ne _ _ _ _ (fun e => hj (e ▸ hk))⟩
            rw [h.2 n (by omega)]
            rfl
          · intro ho hall hlen
            split
            · rename_i hs
              exact hall k ho.1 hs
            · omega
  constructor
  · intro hno
    have hlen : ∀ (ops : List FileOp) (s : Registers) (ref : Nat → Nat), FileInv s ref →
        (¬ ∃ op ∈ ops, assignsOther op) →
        (ops.foldl FileOp.run s).slots.length = s.slots.length := by
      intro ops
      induction ops with
      | nil => intro s _ _ _; rfl
      | cons op ops ih =>
        intro s ref h hno
        obtain ⟨⟨ref', h1⟩, -, h3, -⟩ := hstep op s ref h
        refine (ih (op.run s) ref' h1 fun ⟨o, a, b⟩ => hno ⟨o, List.mem_cons_of_mem _ a, b⟩).trans ?_
        exact (h3 fun h => hno ⟨op, List.mem_cons_self, h⟩).1
    have hlen : (ops.foldl FileOp.run s0).len = 8 := (hlen ops s0 ref0 hi0 hno).trans hlen0
    have hget : ∀ i : Nat, i < 8 →
        (fun i : Int => (ops.foldl FileOp.run s0).getitem (.num i)) i = .ok (ref i) :=
      fun i hi' => file_getitem hi i hi'
    refine ⟨((List.range 8).map ref).reverse, ?_, ?_⟩
    · unfold Registers.reversed
      rw [hlen]
      exact revIter_all _ ref 8 hget
    · rw [List.map_reverse, List.map_map]
      congr 1
      refine List.map_congr_left fun i hi' => ?_
      exact (hget i (List.mem_range.1 hi')).symm
  · intro hyes
    have hmono : ∀ (ops : List FileOp) (s : Registers) (ref : Nat → Nat), FileInv s ref →
        s.slots.length ≤ (ops.foldl FileOp.run s).slots.length := by
      intro ops
      induction ops with
      | nil => intro s _ _; exact le_refl _
      | cons op ops ih =>
        intro s ref h
        obtain ⟨⟨ref', h1⟩, h2, -⟩ := hstep op s ref h
        exact h2.trans (ih _ ref' h1)
    have hlong : ∀ (ops : List FileOp) (s : Registers) (ref : Nat → Nat), FileInv s ref →
        (∀ k : Int, ¬ (0 ≤ k ∧ k < 8) → (dget s.slots k).isSome → 9 ≤ s.slots.length) →
        8 ≤ s.slots.length → (∃ op ∈ ops, assignsOther op) →
        9 ≤ (ops.foldl FileOp.run s).slots.length := by
      intro ops
      induction ops with
      | nil => intro s _ _ _ _ ⟨_, h, _⟩; cases h
      | cons op ops ih =>
        intro s ref h hall hl ⟨o, ho1, ho2⟩
        obtain ⟨⟨ref', h1⟩, h2, h3, h4⟩ := hstep op s ref h
        by_cases ho : assignsOther op
        · exact (h4 ho hall hl).trans (hmono ops _ ref' h1)
        · obtain ⟨h5, h6⟩ := h3 ho
          refine ih (op.run s) ref' h1 (fun k hk hs => ?_) (by omega) ?_
          · rw [h6 k hk] at hs
            rw [h5]
            exact hall k hk hs
          · rcases List.mem_cons.1 ho1 with rfl | ho1
            · exact absurd ho2 ho
            · exact ⟨o, ho1, ho2⟩
    have hlen := hlong ops s0 ref0 hi0 hother0 (by omega) hyes
    unfold Registers.reversed
    obtain ⟨k, hk⟩ : ∃ k, (ops.foldl FileOp.run s0).len = k + 1 ∧ 8 ≤ k := by
      unfold Registers.len
      exact ⟨(ops.foldl FileOp.run s0).slots.length - 1, by omega, by omega⟩
    rw [hk.1]
    apply revIter_stop _ _ (by decide)
    have hN : ((Registers.NUM_GROUPS : Nat) : Int) = 8 := rfl
    show (ops.foldl FileOp.run s0).getitem (.num k) = _
    simp only [Registers.getitem]
    rw [if_pos (by omega)]

/-- C222 is false: a word of four bits numbered from 1. -/
theorem C222_refuted : ¬ C222_statement := by
  intro h
  obtain ⟨xs, h1, -⟩ := h.1 ⟨4, 5, .msb1, .msbLeft⟩
  have h2 : (⟨4, 5, .msb1, .msbLeft⟩ : BitField).reversed = ([0, 1, 0], some .valueError) := by
    decide +kernel
  rw [h2] at h1
  injection h1 with _ h1
  cases h1

example : (⟨4, 6, .lsb0, .msbLeft⟩ : BitField).reversed = ([0, 1, 1, 0], none) ∧
    (⟨4, 2, .lsb0, .msbLeft⟩ : BitField).reversed = ([0, 0, 1, 0], none) := by decide +kernel

/-- A group with a register under the name "X1". -/
example : ((⟨16, dictOf 0, 0⟩ : RegisterGroup).reversed).1.length = 32 ∧
    (GroupOp.run ⟨16, dictOf 0, 0⟩ (.setitem (.name (py "X1")) 3)).reversed =
      ([], some .valueError) := by decide +kernel

/-- A register file with group 1 also under the number 8, and one with group 1 in place of group 5. -/
example : ∃ s, Registers.init 16 = .ok s ∧
    (FileOp.run s (.assign (.num 8) (.num 1))).reversed = ([], some .valueError) ∧
    (FileOp.run s (.assign (.num 5) (.num 1))).reversed = ([7, 6, 1, 4, 3, 2, 1, 0], none) :=
  ⟨_, file_init 16 (Or.inl rfl), by decide +kernel, by decide +kernel⟩

end H800
