import Verif.Lemmas.Gen

/-!
Properties C78 and C79: genlines.
-/

namespace H800

open Spec

/-- C78, in full: genlines prints the numbers from `start` to `end` in steps of `step`, and no
others. -/
def C78_statement : Prop := ∀ (a0 a1 a2 : Str) (start end_ step : Int),
  Signed a0 start → Signed a1 end_ → Signed a2 step → a0.length ≤ 6 → a1.length ≤ 6 →
  start ≤ end_ → 1 ≤ step →
  ∃ lines nums, genlines [a0, a1, a2] = .ok lines ∧ List.Forall₂ Shows lines nums ∧
    nums.Pairwise (· < ·) ∧ ∀ n, n ∈ nums ↔ step ∣ n - start ∧ start ≤ n ∧ n ≤ end_

theorem genLine_forall (w : Nat) (sc ec : Int) (nums : List Int) :
    List.Forall₂ Shows (nums.map (genLine w sc ec)) nums := by
  induction nums with
  | nil => exact .nil
  | cons n l ih => exact .cons (genLine_shows w sc ec n) ih

/-- C78, what holds: the numbers printed are those reached from `start` in steps of `step` before
`end + step`; the last one may lie up to `step - 1` beyond `end`. With a negative step they fall. -/
theorem C78_exact_partial (a0 a1 : Str) (rest : List Str) (start end_ step sc ec : Int)
    (h0 : Signed a0 start) (h1 : Signed a1 end_) (l0 : a0.length ≤ 6) (l1 : a1.length ≤ 6)
    (hs : OptArg rest 0 1 step) (hsc : OptArg rest 1 2 sc) (hec : OptArg rest 2 7 ec)
    (hne : step ≠ 0) :
    ∃ lines nums, genlines (a0 :: a1 :: rest) = .ok lines ∧ List.Forall₂ Shows lines nums ∧
      (0 < step → nums.Pairwise (· < ·) ∧
        ∀ n, n ∈ nums ↔ step ∣ n - start ∧ start ≤ n ∧ n < end_ + step) ∧
      (step < 0 → nums.Pairwise (· > ·) ∧
        ∀ n, n ∈ nums ↔ step ∣ n - start ∧ n ≤ start ∧ end_ + step < n) := by
  rw [genlines_eq h0 h1 l0 l1 hs hsc hec]
  rcases lt_or_gt_of_ne hne with h | h
  · obtain ⟨l, hl, hp, hm⟩ := rangeStep_neg (start := start) (stop := end_ + step) h
    rw [hl]
    exact ⟨_, l, rfl, genLine_forall _ _ _ _, fun h' => absurd h' (by omega), fun _ => ⟨hp, hm⟩⟩
  · obtain ⟨l, hl, hp, hm⟩ := rangeStep_pos (start := start) (stop := end_ + step) h
    rw [hl]
    exact ⟨_, l, rfl, genLine_forall _ _ _ _, fun _ => ⟨hp, hm⟩, fun h' => absurd h' (by omega)⟩

/-- C78: the full claim holds if `end` is reached from `start` in steps of `step`, in particular for
step 1. -/
theorem C78_divides_partial (a0 a1 : Str) (rest : List Str) (start end_ step sc ec : Int)
    (h0 : Signed a0 start) (h1 : Signed a1 end_) (l0 : a0.length ≤ 6) (l1 : a1.length ≤ 6)
    (hs : OptArg rest 0 1 step) (hsc : OptArg rest 1 2 sc) (hec : OptArg rest 2 7 ec)
    (hpos : 1 ≤ step) (hd : step ∣ end_ - start) :
    ∃ lines nums, genlines (a0 :: a1 :: rest) = .ok lines ∧ List.Forall₂ Shows lines nums ∧
      nums.Pairwise (· < ·) ∧ ∀ n, n ∈ nums ↔ step ∣ n - start ∧ start ≤ n ∧ n ≤ end_ := by
  obtain ⟨lines, nums, h, hf, hp, -⟩ :=
    C78_exact_partial a0 a1 rest start end_ step sc ec h0 h1 l0 l1 hs hsc hec (by omega)
  obtain ⟨hp, hm⟩ := hp (by omega)
  refine ⟨lines, nums, h, hf, hp, fun n => ?_⟩
  rw [hm n]
  constructor
  · rintro ⟨hn, h2, h3⟩
    refine ⟨hn, h2, ?_⟩
    by_contra hgt
    have : step ∣ n - end_ := by
      have := Int.dvd_sub hn hd
      rwa [show n - start - (end_ - start) = n - end_ by ring] at this
    have := Int.le_of_dvd (by omega) this
    omega
  · rintro ⟨hn, h2, h3⟩
    exact ⟨hn, h2, by omega⟩

/-- C78: step 0 is an error, and so are too long arguments. -/
theorem C78_errors_partial (a0 a1 : Str) (rest : List Str) :
    (6 < a0.length ∨ 6 < a1.length → genlines (a0 :: a1 :: rest) = .error .systemExit) ∧
    (∀ start end_ sc ec, Signed a0 start → Signed a1 end_ → a0.length ≤ 6 → a1.length ≤ 6 →
      OptArg rest 0 1 0 → OptArg rest 1 2 sc → OptArg rest 2 7 ec →
      genlines (a0 :: a1 :: rest) = .error .valueError) := by
  constructor
  · intro h
    unfold genlines
    simp only
    by_cases h0 : a0.length > 6
    · rw [if_pos h0]
    · rw [if_neg h0, if_pos (by omega)]
  · intro start end_ sc ec h0 h1 l0 l1 hs hsc hec
    rw [genlines_eq h0 h1 l0 l1 hs hsc hec]
    rfl

/-- C78 is false: from 1 to 4 in steps of 2, genlines prints 1, 3 and 5. -/
theorem C78_refuted : ¬ C78_statement := by
  intro h
  have hd : ∀ c : Char, c.toNat - '0'.toNat < 10 → '0'.toNat ≤ c.toNat → Signed [c] (c.toNat - '0'.toNat : Nat) := by
    intro c hc h0
    refine Or.inl ⟨by omega, by simp, ?_, by simp [ofDigits]⟩
    intro x hx
    rw [List.mem_singleton.1 hx]
    have : '9'.toNat = '0'.toNat + 9 := rfl
    omega
  obtain ⟨lines, nums, hl, hf, -, hm⟩ := h (py "1") (py "4") (py "2") 1 4 2
    (hd '1' (by decide) (by decide)) (hd '4' (by decide) (by decide)) (hd '2' (by decide) (by decide))
    (by decide) (by decide) (by decide) (by decide)
  have e : genlines [py "1", py "4", py "2"] =
      .ok [py " 0001   ", py " 0003   ", py " 0005   "] := rfl
  rw [e] at hl
  obtain rfl := Except.ok.inj hl
  cases hf with
  | cons x1 hf =>
    cases hf with
    | cons x2 hf =>
      cases hf with
      | cons x3 hf =>
        rename_i n3 _
        have h5 : Shows (py " 0005   ") 5 :=
          ⟨1, 3, py "0005", rfl, Or.inl ⟨by omega, by decide, by decide, by decide⟩⟩
        have : n3 = 5 := shows_unique x3 h5
        subst this
        have := ((hm 5).1 (by simp)).2.2
        omega

/-- C78, an example of the hypotheses: 10 to 20 in steps of 5. -/
example : genlines [py "10", py "020", py "5"] = .ok [py " 0010   ", py " 0015   ", py " 0020   "] ∧
    Signed (py "020") 20 ∧ OptArg [py "5"] 0 1 5 ∧ OptArg [py "5"] 1 2 2 ∧ OptArg [py "5"] 2 7 7 ∧
    (5 : Int) ∣ 20 - 10 :=
  ⟨rfl, Or.inl ⟨by decide, by decide, by decide, by decide⟩,
    Or.inr ⟨py "5", rfl, Or.inl ⟨by decide, by decide, by decide, by decide⟩⟩,
    Or.inl ⟨rfl, rfl⟩, Or.inl ⟨rfl, rfl⟩, by decide⟩

/-! ### C79 -/

/-- The names of the fields of a card other than the card number. -/
def otherNames : List Str :=
  [py "column1", py "column8", py "label", py "operation", py "operand1", py "operand2",
   py "operand3", py "misc", py "remarks"]

/-- C79: with the default columns, a line printed for a number that has no more digits than the
second argument, or at most four, is eight characters long: a blank, the number with leading zeros
to the width of the second argument and at least four digits, and blanks. Read as a card of either
class it has that as card number and nothing else. -/
theorem C79_card (a0 a1 : Str) (rest : List Str) (start end_ step : Int) (lines : List Str)
    (h0 : Signed a0 start) (h1 : Signed a1 end_) (hr : rest.length ≤ 1)
    (hs : OptArg rest 0 1 step) (h : genlines (a0 :: a1 :: rest) = .ok lines)
    (l : Str) (hl : l ∈ lines) (n : Nat) (hn : Shows l n) (hfit : n < 10 ^ max 4 a1.length) :
    l.length = 8 ∧ ∃ num, Decimal num n ∧ num.length = max 4 a1.length ∧ num.length ≤ 6 ∧
      l = ' ' :: num ++ List.replicate (7 - num.length) ' ' ∧
      (∃ c, argusClass l DEFAULT_WIDTH DEFAULT_FIELDS none 0 = .ok c ∧
        Card.lognum c = .ok (.str num) ∧ c.item (py "instruction") = .ok .none ∧
        ∀ f ∈ otherNames, c.item f = .ok .none) ∧
      (∃ c, punchClass l DEFAULT_WIDTH DEFAULT_FIELDS none 0 = .ok c ∧
        c.item (py "lognum") = .ok (.str num) ∧ ∀ f ∈ otherNames, c.item f = .ok .none) := by
  have l0 : a0.length ≤ 6 := by
    by_contra hc
    rw [(C78_errors_partial a0 a1 rest).1 (by omega)] at h; cases h
  have l1 : a1.length ≤ 6 := by
    by_contra hc
    rw [(C78_errors_partial a0 a1 rest).1 (by omega)] at h; cases h
  have hnone : ∀ i, 1 ≤ i → rest[i]? = none := fun i hi => List.getElem?_eq_none (by omega)
  rw [genlines_eq h0 h1 l0 l1 hs (sc := 2) (ec := 7) (Or.inl ⟨hnone 1 (by omega), rfl⟩)
    (Or.inl ⟨hnone 2 (by omega), rfl⟩)] at h
  obtain ⟨m, rfl⟩ : ∃ m, l = genLine (max 4 a1.length) 2 7 m := by
    cases hr : pyRangeStep start (end_ + step) step with
    | error e => rw [hr] at h; cases h
    | ok nums =>
      rw [hr] at h
      obtain rfl := Except.ok.inj h
      obtain ⟨m, -, rfl⟩ := List.mem_map.1 hl
      exact ⟨m, rfl⟩
  obtain rfl := shows_unique (genLine_shows _ _ _ m) hn
  set w := max 4 a1.length with hw
  have hw1 : 4 ≤ w := by omega
  have hw2 : w ≤ 6 := by omega
  have hlen : (padLeft '0' w (numeral 10 n)).length = w := by
    have := numeral_length (n := n) (w := w) (by omega) hfit
    simp [padLeft]; omega
  have hform : genLine w 2 7 (n : Int) =
      ' ' :: padLeft '0' w (numeral 10 n) ++ List.replicate (7 - w) ' ' := by
    unfold genLine spaces zeroPad
    rw [if_neg (by omega), Int.natAbs_natCast]
    have e1 : ((2 : Int) - 1).toNat = 1 := rfl
    have e2 : ((7 : Int) + 2 - 2 - (w : Int)).toNat = 7 - w := by omega
    rw [e1, e2]
    rfl
  rw [hform]
  set num := padLeft '0' w (numeral 10 n) with hnum
  have hdec : Decimal num n := padLeft_decimal _ _
  set line := ' ' :: num ++ List.replicate (7 - w) ' ' with hline
  have hlen8 : line.length = 8 := by simp [hline]; omega
  have c1 : columns line 1 2 = [' '] := by simp [columns, hline]
  have c2 : columns line 2 8 = num ++ List.replicate (6 - w) ' ' := by
    simp only [columns, hline, List.cons_append]
    rw [show (2 - 1 : Nat) = 1 from rfl, List.drop_succ_cons, List.drop_zero, List.take_append, hlen,
      List.take_of_length_le (by omega), List.take_replicate]
    congr 2; omega
  have c8 : columns line 8 9 = [' '] := by
    simp only [columns, hline, List.cons_append]
    rw [show (8 - 1 : Nat) = 6 + 1 from rfl, List.drop_succ_cons, List.drop_append, hlen,
      List.drop_of_length_le (by omega), List.drop_replicate, List.nil_append, List.take_replicate]
    rw [show min (9 - 8) (7 - w - (6 - w)) = 1 by omega]; rfl
  have c9 : ∀ a b, 9 ≤ a → columns line a b = [] := by
    intro a b ha
    simp only [columns]
    rw [List.drop_of_length_le (by omega), List.take_nil]
  have v1 : val [' '] = .none := by decide
  have v0 : val [] = .none := by decide
  have vn : val (num ++ List.replicate (6 - w) ' ') = .str num := by
    unfold val PunchCard.entry
    rw [strip_append_blank (blank_replicate _), strip_trimmed (decimal_trimmed hdec), if_neg hdec.1]
    rfl
  have hne : line.head? ≠ some '#' := by simp [hline]
  have hprl : ¬ PRL line := by simp [PRL, hline]
  refine ⟨hlen8, num, hdec, hlen, by omega, by rw [hlen], ?_, ?_⟩
  · refine ⟨_, argus_eq line hne none 0, ?_⟩
    have hi1 : Card.isPRL (val (columns line 1 2)) = false := by
      rw [Bool.eq_false_iff]; intro e; exact hprl ((isPRL_iff line).1 e)
    simp only [Card.lognum, PunchCard.item, PunchCard.record, PunchCard.getBody, py_bind_ok, py_pure]
    have hrec : argusRecord line 0 =
        [(py "column1", .none), (py "lognum", .str num),
         (py "column8", .none), (py "label", .none), (py "operation", .none),
         (py "operand1", .none), (py "operand2", .none), (py "operand3", .none), (py "misc", .none),
         (py "remarks", .none), (py "instruction", .none)] := by
      unfold argusRecord
      rw [hi1]
      unfold punchRecord
      simp only [Bool.false_eq_true, if_false, c1, c2, c8, c9 9 20 (by omega), c9 20 33 (by omega),
        c9 33 47 (by omega), c9 47 61 (by omega), c9 61 76 (by omega), c9 76 81 (by omega),
        c9 81 121 (by omega), v1, v0, vn]
      rfl
    rw [hrec]
    refine ⟨rfl, rfl, ?_⟩
    intro f hf
    simp only [otherNames, List.mem_cons, List.not_mem_nil, or_false] at hf
    rcases hf with rfl | rfl | rfl | rfl | rfl | rfl | rfl | rfl | rfl <;> rfl
  · refine ⟨_, punch_eq line hne none 0, ?_⟩
    simp only [PunchCard.item, PunchCard.record, PunchCard.getBody, py_bind_ok, py_pure]
    have hrec : punchRecord line 0 =
        [(py "column1", .none), (py "lognum", .str num),
         (py "column8", .none), (py "label", .none), (py "operation", .none),
         (py "operand1", .none), (py "operand2", .none), (py "operand3", .none), (py "misc", .none),
         (py "remarks", .none)] := by
      unfold punchRecord
      simp only [c1, c2, c8, c9 9 20 (by omega), c9 20 33 (by omega),
        c9 33 47 (by omega), c9 47 61 (by omega), c9 61 76 (by omega), c9 76 81 (by omega),
        c9 81 121 (by omega), v1, v0, vn]
      rfl
    rw [hrec]
    refine ⟨rfl, ?_⟩
    intro f hf
    simp only [otherNames, List.mem_cons, List.not_mem_nil, or_false] at hf
    rcases hf with rfl | rfl | rfl | rfl | rfl | rfl | rfl | rfl | rfl <;> rfl

/-- C79: every number up to `end` fits. -/
theorem C79_fits (a1 : Str) (end_ : Int) (n : Nat) (h1 : Signed a1 end_) (hn : (n : Int) ≤ end_) :
    n < 10 ^ max 4 a1.length := by
  rcases h1 with ⟨h0, h⟩ | ⟨h0, -⟩
  · have := decimal_lt h
    have h2 : 10 ^ a1.length ≤ 10 ^ max 4 a1.length := Nat.pow_le_pow_right (by omega) (by omega)
    omega
  · omega

example : Shows (py " 00100  ") 100 ∧
    genlines [py "99", py "00100"] = .ok [py " 00099  ", py " 00100  "] :=
  ⟨⟨1, 2, py "00100", rfl, Or.inl ⟨by decide, by decide, by decide, by decide⟩⟩, rfl⟩

end H800
