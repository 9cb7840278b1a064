import Verif.Model.Show
import Verif.Spec.Show
import Verif.Lemmas.Numeral
import Verif.Props.Registers
import Verif.Props.Memory

/-! Properties C102 and C103: the printed forms of registers, groups, files and memory banks. -/

namespace H800

open Spec

theorem octal_pad (w n : Nat) (hw : 1 ≤ w) :
    Octal w n ('0' :: 'o' :: padLeft '0' w (numeral 8 n)) := by
  obtain ⟨d1, d2, d3, d4⟩ := digits_spec 8 n (by omega)
  refine ⟨_, rfl, ?_, ?_, ?_, ?_⟩
  · unfold padLeft; rw [List.length_append, List.length_replicate]; omega
  · intro k hk hlt
    have hlt : n < 8 ^ k := by exact_mod_cast hlt
    have := d3 k (by omega) hlt
    unfold padLeft numeral
    rw [List.length_append, List.length_replicate, List.length_map]
    omega
  · intro c hc
    unfold padLeft numeral at hc
    rcases List.mem_append.1 hc with hc | hc
    · rw [(List.mem_replicate.1 hc).2]; decide
    · obtain ⟨d, hd, rfl⟩ := List.mem_map.1 hc
      have hd := d2 d hd
      have : ∀ d : Fin 8, digitChar d.1 ∈ py "01234567" := by decide
      exact this ⟨d, hd⟩
  · norm_cast
    unfold padLeft numeral
    rw [List.map_append, List.map_replicate, List.map_map]
    have h2 : (digits 8 n).map (octDigit ∘ digitChar) = digits 8 n := by
      conv_rhs => rw [← List.map_id (digits 8 n)]
      apply List.map_congr_left
      intro d hd
      exact digitChar_toNat d (by have := d2 d hd; omega)
    rw [h2]
    have : octDigit '0' = 0 := rfl
    rw [this, ofDigits_replicate_zero, d1]

theorem octal_no_blank {w : Nat} {v : Int} {s : Str} (h : Octal w v s) : ' ' ∉ s := by
  obtain ⟨ds, rfl, _, _, hc, _⟩ := h
  intro hm
  simp only [List.mem_cons] at hm
  rcases hm with hm | hm | hm
  · revert hm; decide
  · revert hm; decide
  · have := hc _ hm; revert this; decide

theorem octal_value {w : Nat} {v v' : Int} {s : Str} (h : Octal w v s) (h' : Octal w v' s) :
    v = v' := by
  obtain ⟨ds, rfl, _, _, _, h1⟩ := h
  obtain ⟨ds', he, _, _, _, h2⟩ := h'
  injection he with _ he; injection he with _ he
  rw [← h1, ← h2, he]

theorem append_sep_inj (c : Char) : ∀ (a b u v : Str), c ∉ a → c ∉ b →
    a ++ ([c] ++ u) = b ++ ([c] ++ v) → a = b ∧ u = v := by
  intro a
  induction a with
  | nil =>
    intro b u v _ hb h
    cases b with
    | nil => simpa using h
    | cons d b =>
      simp only [List.nil_append, List.cons_append] at h
      injection h with h _
      exact absurd (by rw [h]; simp) hb
  | cons d a iha =>
    intro b u v ha hb h
    cases b with
    | nil =>
      simp only [List.nil_append, List.cons_append] at h
      injection h with h _
      exact absurd (by rw [← h]; simp) ha
    | cons e b =>
      simp only [List.cons_append] at h
      injection h with h1 h2
      obtain ⟨h3, h4⟩ := iha b u v (fun hh => ha (by simp [hh])) (fun hh => hb (by simp [hh])) h2
      exact ⟨by rw [h1, h3], h4⟩

/-- Pieces closed by a character that does not occur in them can be told apart. -/
theorem closed_inj (c : Char) : ∀ (xs ys : List Str), (∀ x ∈ xs, c ∉ x) → (∀ y ∈ ys, c ∉ y) →
    (xs.map (· ++ [c])).flatten = (ys.map (· ++ [c])).flatten → xs = ys := by
  intro xs
  induction xs with
  | nil =>
    intro ys _ _ h
    cases ys with
    | nil => rfl
    | cons y ys => simp at h
  | cons x xs ih =>
    intro ys hx hy h
    cases ys with
    | nil => simp at h
    | cons y ys =>
      simp only [List.map_cons, List.flatten_cons, List.append_assoc] at h
      obtain ⟨h1, h2⟩ := append_sep_inj c x y _ _ (hx x (by simp)) (hy y (by simp)) h
      rw [h1, ih ys (fun z hz => hx z (by simp [hz])) (fun z hz => hy z (by simp [hz])) h2]

theorem row_inj (xs ys : List Str) (hx : ∀ x ∈ xs, ' ' ∉ x) (hy : ∀ y ∈ ys, ' ' ∉ y)
    (h : row xs = row ys) : xs = ys := closed_inj ' ' xs ys hx hy h

theorem octal_no_newline {w : Nat} {v : Int} {s : Str} (h : Octal w v s) : '\n' ∉ s := by
  obtain ⟨ds, rfl, _, _, hc, _⟩ := h
  intro hm
  simp only [List.mem_cons] at hm
  rcases hm with hm | hm | hm
  · revert hm; decide
  · revert hm; decide
  · have := hc _ hm; revert this; decide

/-! ### C102 -/

/-- C102, one register: its value as an octal numeral of at least six digits. -/
theorem C102_register (r : Register) (h : 0 ≤ r.value) : Octal 6 r.value r.repr := by
  unfold Register.repr
  rw [if_neg (by omega)]
  obtain ⟨n, hn⟩ := Int.eq_ofNat_of_zero_le h
  have := octal_pad 6 n (by omega)
  rw [hn]
  exact this

/-- C102, one register: a value below zero, as a store through a slice may leave, is shown with its sign after
the `0o` and at least five digits. -/
theorem C102_negative (r : Register) (h : r.value < 0) :
    ∃ ds, r.repr = '0' :: 'o' :: '-' :: ds ∧ Octal 5 (-r.value) ('0' :: 'o' :: ds) := by
  unfold Register.repr
  rw [if_pos h]
  refine ⟨_, rfl, ?_⟩
  have := octal_pad 5 r.value.natAbs (by omega)
  rw [show -r.value = (r.value.natAbs : Int) by omega]
  exact this

/-- Case of C102: -9 stored in all bits of a register of zeros. -/
example : (Register.init 0 none 16).toOption.map (fun r =>
    ((r.setitem (.slice (some 1) (some 16)) (-9)).1.value,
      (r.setitem (.slice (some 1) (some 16)) (-9)).1.repr)) = some (-9, py "0o-00011") := by decide +kernel

theorem reprLoop_canon (W : Nat) (m : RegMap) (a : Nat) (ha : a < 8) (ns : List Nat)
    (hns : ∀ n ∈ ns, n < 32) :
    RegisterGroup.reprLoop (heapOf W m) (ns.map fun (n : Nat) => (GKey.num n, 32 * a + n)) =
      .ok (row (ns.map fun n => (mkReg W n (m a n)).repr)) := by
  induction ns with
  | nil => rfl
  | cons n ns ih =>
    rw [List.map_cons, RegisterGroup.reprLoop]
    rw [heapOf_get W m a n ha (hns n (by simp))]
    simp only
    rw [ih (fun k hk => hns k (by simp [hk]))]
    simp [row]

theorem groupRepr_canon (W : Nat) (m : RegMap) (a c : Nat) (ha : a < 8) :
    RegisterGroup.repr (heapOf W m) ⟨W, dictOf (32 * a), c⟩ =
      .ok (row ((List.range 32).map fun n => (mkReg W n (m a n)).repr)) :=
  reprLoop_canon W m a ha (List.range 32) (fun _ hn => List.mem_range.1 hn)

/-- The row printed for group `a`: the numerals of its 32 registers, in order of their numbers. -/
def GroupRow (s : Registers) (a : Nat) (t : Str) : Prop :=
  ∃ cells : List Str, t = row cells ∧ cells.length = 32 ∧
    ∀ n : Nat, n < 32 → ∃ r c, s.reg (.num a) (.num n) = .ok r ∧ cells[n]? = some c ∧ Octal 6 r.value c

theorem groupRow_canon (W : Nat) (m : RegMap) (gc : Nat → Nat) (c a : Nat) (ha : a < 8)
    (hm : ∀ g n, Fits W (m g n)) :
    GroupRow (canon W m gc c) a (row ((List.range 32).map fun n => (mkReg W n (m a n)).repr)) := by
  refine ⟨_, rfl, by simp, fun n hn => ?_⟩
  refine ⟨mkReg W n (m a n), _, ?_, ?_, C102_register _ (hm a n).1⟩
  · rw [reg_canon, groupIndex_nat ha, regIndex_nat hn]
  · rw [List.getElem?_map, List.getElem?_range hn]; rfl

/-- A register file after a history of in-range writes and iteration. -/
def FileInRange (s : Registers) : Prop :=
  ∃ (w : Int) (s0 : Registers) (ops : List RegOp), Registers.init w = .ok s0 ∧
    (∀ op ∈ ops, InRange op) ∧ s = ops.foldl RegOp.run s0

theorem fileInRange_canon {s : Registers} (h : FileInRange s) :
    ∃ W m gc c, s = canon W m gc c ∧ ∀ g n, Fits W (m g n) := by
  obtain ⟨w, s0, ops, h0, hops, rfl⟩ := h
  by_cases hw : w = 16 ∨ w = 24
  · rw [file_init w hw] at h0
    injection h0 with h0
    subst h0
    have hz : Fits w.toNat 0 := ⟨le_refl _, by positivity⟩
    obtain ⟨⟨gc, c, h1⟩, h2⟩ := runs_inRange w.toNat (by omega) ops hops (fun _ _ => 0) (fun _ => 0) 0
      (by omega) (by intro _; omega) (fun _ _ => hz)
    exact ⟨_, _, gc, c, h1, h2⟩
  · rw [C24_bad_width w hw] at h0; cases h0

/-- C102, a group: `str(registers[a])` is the row of its 32 registers. -/
theorem C102_group (s : Registers) (hs : FileInRange s) (a : Nat) (ha : a < 8) :
    ∃ g grp t, s.getitem (.num a) = .ok g ∧ s.groups[g]? = some grp ∧
      grp.repr s.heap = .ok t ∧ GroupRow s a t := by
  obtain ⟨W, m, gc, c, rfl, hm⟩ := fileInRange_canon hs
  refine ⟨a, ⟨W, dictOf (32 * a), gc a⟩, _, ?_, groupsOf_get W gc a ha,
    groupRepr_canon W m a (gc a) ha, groupRow_canon W m gc c a ha hm⟩
  rw [getitem_canon, groupIndex_nat ha]

theorem fileLoop_canon (W : Nat) (m : RegMap) (gc : Nat → Nat) (c : Nat) (ks : List Nat)
    (hks : ∀ k ∈ ks, k < 8) :
    (canon W m gc c).reprLoop (ks.map fun (k : Nat) => ((k : Int), k)) =
      .ok ((ks.map fun k => ['['] ++ numeral 10 k ++ py "] " ++
        row ((List.range 32).map fun n => (mkReg W n (m k n)).repr) ++ ['\n']).flatten) := by
  induction ks with
  | nil => rfl
  | cons k ks ih =>
    have hk := hks k (by simp)
    rw [List.map_cons, Registers.reprLoop]
    have h1 : (canon W m gc c).groups[k]? = some ⟨W, dictOf (32 * k), gc k⟩ := groupsOf_get W gc k hk
    rw [h1]
    simp only
    have h2 := groupRepr_canon W m k (gc k) hk
    have h3 : (canon W m gc c).heap = heapOf W m := rfl
    rw [h3, h2, ih (fun j hj => hks j (by simp [hj]))]
    simp

/-- C102, the file: eight lines, `[k]` and the row of group `k`. -/
theorem C102_file (s : Registers) (hs : FileInRange s) :
    ∃ rows : List Str, rows.length = 8 ∧ (∀ a, a < 8 → ∃ t, rows[a]? = some t ∧ GroupRow s a t) ∧
      s.repr = .ok ((List.zip (py "01234567") rows).map
        (fun q => ['[', q.1, ']', ' '] ++ q.2 ++ ['\n'])).flatten := by
  obtain ⟨W, m, gc, c, rfl, hm⟩ := fileInRange_canon hs
  refine ⟨(List.range 8).map fun k => row ((List.range 32).map fun n => (mkReg W n (m k n)).repr),
    by simp, ?_, ?_⟩
  · intro a ha
    refine ⟨_, ?_, groupRow_canon W m gc c a ha hm⟩
    rw [List.getElem?_map, List.getElem?_range ha]; rfl
  · have h := fileLoop_canon W m gc c (List.range 8) (fun k hk => List.mem_range.1 hk)
    exact h

theorem groupRow_cells {s : Registers} {a : Nat} {cs : List Str} (hl : cs.length = 32)
    (hc : ∀ n : Nat, n < 32 → ∃ r c, s.reg (.num a) (.num n) = .ok r ∧ cs[n]? = some c ∧
      Octal 6 r.value c) : ∀ x ∈ cs, ' ' ∉ x ∧ '\n' ∉ x := by
  intro x hx
  obtain ⟨i, hi, rfl⟩ := List.getElem_of_mem hx
  obtain ⟨r, c, _, h2, h3⟩ := hc i (by omega)
  rw [List.getElem?_eq_getElem hi] at h2
  injection h2 with h2
  rw [h2]; exact ⟨octal_no_blank h3, octal_no_newline h3⟩

theorem groupRow_no_newline {s : Registers} {a : Nat} {t : Str} (h : GroupRow s a t) : '\n' ∉ t := by
  obtain ⟨cs, rfl, hl, hc⟩ := h
  intro hm
  unfold row at hm
  obtain ⟨l, hl', hm⟩ := List.mem_flatten.1 hm
  obtain ⟨x, hx, rfl⟩ := List.mem_map.1 hl'
  rcases List.mem_append.1 hm with hm | hm
  · exact (groupRow_cells hl hc x hx).2 hm
  · revert hm; decide

theorem groupRow_values {s s' : Registers} {a : Nat} {t : Str} (h : GroupRow s a t)
    (h' : GroupRow s' a t) (n : Nat) (hn : n < 32) :
    ∃ r r', s.reg (.num a) (.num n) = .ok r ∧ s'.reg (.num a) (.num n) = .ok r' ∧
      r.value = r'.value := by
  obtain ⟨cs, h1, hl, hc⟩ := h
  obtain ⟨cs', h1', hl', hc'⟩ := h'
  have he : cs = cs' := row_inj cs cs' (fun x hx => (groupRow_cells hl hc x hx).1)
    (fun x hx => (groupRow_cells hl' hc' x hx).1) (h1 ▸ h1')
  subst he
  obtain ⟨r, c, h2, h3, h4⟩ := hc n hn
  obtain ⟨r', c', h2', h3', h4'⟩ := hc' n hn
  rw [h3] at h3'; injection h3' with h3'; subst h3'
  exact ⟨r, r', h2, h2', octal_value h4 h4'⟩

/-- C102, nothing is lost: two register files that print the same hold the same values. -/
theorem C102_determined (s s' : Registers) (hs : FileInRange s) (hs' : FileInRange s')
    (h : s.repr = s'.repr) (a n : Nat) (ha : a < 8) (hn : n < 32) :
    ∃ r r', s.reg (.num a) (.num n) = .ok r ∧ s'.reg (.num a) (.num n) = .ok r' ∧
      r.value = r'.value := by
  obtain ⟨rows, hl, hr, he⟩ := C102_file s hs
  obtain ⟨rows', hl', hr', he'⟩ := C102_file s' hs'
  rw [he, he'] at h
  injection h with h
  have hmap : ∀ rows : List Str, ((List.zip (py "01234567") rows).map
      (fun q => ['[', q.1, ']', ' '] ++ q.2 ++ ['\n'])) =
      ((List.zip (py "01234567") rows).map (fun q => ['[', q.1, ']', ' '] ++ q.2)).map
        (· ++ ['\n']) := by
    intro rows; rw [List.map_map]; rfl
  rw [hmap, hmap] at h
  have hno : ∀ (s : Registers) (rows : List Str), rows.length = 8 →
      (∀ a, a < 8 → ∃ t, rows[a]? = some t ∧ GroupRow s a t) →
      ∀ x ∈ (List.zip (py "01234567") rows).map (fun q => ['[', q.1, ']', ' '] ++ q.2),
        '\n' ∉ x := by
    intro s rows hl hr x hx
    obtain ⟨q, hq, rfl⟩ := List.mem_map.1 hx
    obtain ⟨h1, h2⟩ := List.of_mem_zip hq
    obtain ⟨i, hi, h3⟩ := List.getElem_of_mem h2
    obtain ⟨t, h4, h5⟩ := hr i (by omega)
    rw [List.getElem?_eq_getElem hi] at h4
    injection h4 with h4
    have h6 := groupRow_no_newline h5
    intro hm
    simp only [List.mem_append, List.mem_cons, List.not_mem_nil, or_false] at hm
    rcases hm with (hm | hm | hm | hm) | hm
    · revert hm; decide
    · rw [← hm] at h1; revert h1; decide
    · revert hm; decide
    · revert hm; decide
    · rw [← h3, h4] at hm; exact h6 hm
  have h2 := closed_inj '\n' _ _ (hno s rows hl hr) (hno s' rows' hl' hr') h
  obtain ⟨t, h3, h4⟩ := hr a ha
  obtain ⟨t', h3', h4'⟩ := hr' a ha
  have h5 := congrArg (·[a]?) h2
  have hz : (py "01234567")[a]? = some ((py "01234567")[a]'ha) := List.getElem?_eq_getElem ha
  simp only [List.getElem?_map, List.zip, List.getElem?_zipWith, hz, h3,
    h3', Option.map_some] at h5
  injection h5 with h5
  simp only [List.cons_append, List.nil_append] at h5
  injection h5 with _ h5; injection h5 with _ h5; injection h5 with _ h5; injection h5 with _ h5
  subst h5
  exact groupRow_values h4 h4' n hn

/-- Concrete cases: a register, and a file with two writes. -/
example : ∀ r, Register.init 0o1234 (some (py "X0")) 16 = .ok r → r.repr = py "0o001234" := by
  intro r h
  rw [register_init, if_pos (by decide)] at h
  injection h with h; subst h; decide

example : ∃ s, FileInRange s := ⟨_, 16, _, [.write (.num 2) (.num 8) 7], file_init 16 (Or.inl rfl),
  by decide, rfl⟩

/-! ### C103 -/

theorem bankRepr_mk (vs : List Int) (c : Nat) :
    (MemoryBank.mkBank vs c).repr = row (vs.map fun v =>
      '0' :: 'o' :: padLeft '0' 16 (numeral 8 v.natAbs)) := by
  unfold MemoryBank.repr MemoryBank.mkBank row
  simp only [List.flatMap_map, List.map_map]
  rw [List.flatMap_def]
  rfl

/-- C103: the printed form of a bank is its 2048 words in order of their addresses, sixteen octal
digits each. -/
theorem C103_bank (m : MemoryBank) (hm : BankReach m) :
    ∃ cells : List Str, m.repr = row cells ∧ cells.length = 2048 ∧
      ∀ a : Nat, a < 2048 → ∃ v c, m.get a = .ok v ∧ cells[a]? = some c ∧ Octal 16 v c ∧
        c.length = 18 := by
  obtain ⟨mem, vs, c, rfl, hl, hx⟩ := bankReach_rep hm
  refine ⟨_, bankRepr_mk vs c, by simpa using hl, fun a ha => ?_⟩
  obtain ⟨h1, h2⟩ := hx a ha
  refine ⟨mem a, '0' :: 'o' :: padLeft '0' 16 (numeral 8 (mem a).natAbs), ?_, ?_, ?_⟩
  · obtain ⟨hlt, h3⟩ := List.getElem?_eq_some_iff.1 h1
    rw [MemoryBank.get_mk, dif_pos (by omega)]
    simp only [Int.toNat_natCast, h3]
  · rw [List.getElem?_map, h1]; rfl
  · obtain ⟨n, hn⟩ := Int.eq_ofNat_of_zero_le h2.1
    have h3 := octal_pad 16 n (by omega)
    rw [hn]
    refine ⟨h3, ?_⟩
    obtain ⟨ds, he, h4, h5, _⟩ := h3
    have h6 := h5 16 (le_refl _) (by have := h2.2; rw [hn] at this; norm_num at this ⊢; exact this)
    simp only [Int.natAbs_natCast] at he ⊢
    rw [he]; simp only [List.length_cons]; omega

/-- C103, nothing is lost: two banks that print the same have the same contents. -/
theorem C103_determined (m m' : MemoryBank) (hm : BankReach m) (hm' : BankReach m')
    (h : m.repr = m'.repr) (a : Int) : m.get a = m'.get a := by
  by_cases ha : 0 ≤ a ∧ a < 2048
  · obtain ⟨cs, h1, hl, hc⟩ := C103_bank m hm
    obtain ⟨cs', h1', hl', hc'⟩ := C103_bank m' hm'
    have hnb : ∀ (m : MemoryBank) (cs : List Str), cs.length = 2048 → (∀ a : Nat, a < 2048 → ∃ v c,
        m.get a = .ok v ∧ cs[a]? = some c ∧ Octal 16 v c ∧ c.length = 18) → ∀ x ∈ cs, ' ' ∉ x := by
      intro m cs hl hc x hx
      obtain ⟨i, hi, rfl⟩ := List.getElem_of_mem hx
      obtain ⟨r, c, _, h2, h3, _⟩ := hc i (by omega)
      rw [List.getElem?_eq_getElem hi] at h2
      injection h2 with h2
      rw [h2]; exact octal_no_blank h3
    have he : cs = cs' := row_inj cs cs' (hnb m cs hl hc) (hnb m' cs' hl' hc') (by rw [← h1, ← h1', h])
    subst he
    obtain ⟨k, rfl⟩ := Int.eq_ofNat_of_zero_le ha.1
    obtain ⟨r, c, h2, h3, h4, _⟩ := hc k (by omega)
    obtain ⟨r', c', h2', h3', h4', _⟩ := hc' k (by omega)
    rw [h3] at h3'; injection h3' with h3'; subst h3'
    rw [h2, h2', octal_value h4 h4']
  · rw [((C30_single_access m hm a 0).1 ha).1, ((C30_single_access m' hm' a 0).1 ha).1]

example : (MemoryBank.mkBank [0o17, 2 ^ 48 - 1] 0).repr = py "0o0000000000000017 0o7777777777777777 " := by decide

end H800
