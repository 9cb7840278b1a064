import Verif.Model.Cards
import Verif.Lemmas.Text
import Verif.Lemmas.Dict
import Verif.Lemmas.BitField

/-! Cards: fields, records and the ARGUS card as explicit functions of the line. -/

namespace H800

open Spec

theorem slice_nonneg {α : Type} (s : List α) {a b : Int} (ha : 0 ≤ a) (hab : a ≤ b) :
    slice s a b = (s.drop a.toNat).take (b.toNat - a.toNat) := by
  unfold slice sliceBound
  rw [if_neg (by omega), if_neg (by omega)]
  by_cases h : a.toNat ≤ s.length
  · rw [min_eq_left h]
    by_cases hb : b.toNat ≤ s.length
    · rw [min_eq_left hb]
    · rw [min_eq_right (by omega), List.take_of_length_le, List.take_of_length_le]
      · rw [List.length_drop]; omega
      · rw [List.length_drop]
  · rw [min_eq_right (a := a.toNat) (by omega), List.drop_length, List.drop_of_length_le (by omega)]
    simp

theorem columns_append (s : Str) {a b c : Nat} (h1 : 1 ≤ a) (h2 : a ≤ b) (h3 : b ≤ c) :
    columns s a b ++ columns s b c = columns s a c := by
  unfold columns
  have : c - a = (b - a) + (c - b) := by omega
  rw [this, List.take_add, List.drop_drop]
  have : a - 1 + (b - a) = b - 1 := by omega
  rw [this]

theorem slice_columns (s : Str) {c w : Int} (hc : 1 ≤ c) (hw : 0 ≤ w) :
    slice s (c - 1) (c - 1 + w) = columns s c.toNat (c + w).toNat := by
  rw [slice_nonneg s (by omega) (by omega)]
  unfold columns
  congr 1
  · omega
  · congr 1; omega

/-- The record filled with distinct new names. -/
theorem fill_eq (fs names : List Str) (r : Dict Str RVal) (hl : fs.length ≤ names.length)
    (hn : names.Nodup) (hd : ∀ n ∈ names, n ∉ r.map (·.1)) :
    PunchCard.fill fs names r =
      .ok (r ++ List.zipWith (fun n f => (n, PunchCard.ofEntry (PunchCard.entry f))) names fs) := by
  induction fs generalizing names r with
  | nil => simp [PunchCard.fill]
  | cons f fs ih =>
    cases names with
    | nil => simp at hl
    | cons n ns =>
      have hset : ∀ (r : Dict Str RVal) v, n ∉ r.map (·.1) → dset r n v = r ++ [(n, v)] := by
        intro r v h
        induction r with
        | nil => rfl
        | cons p r ih =>
          simp only [List.map_cons, List.mem_cons, not_or] at h
          rw [dset, if_neg (fun e => h.1 e.symm), ih h.2]
          rfl
      rw [PunchCard.fill, hset _ _ (hd n List.mem_cons_self), ih]
      · simp
      · simpa using hl
      · exact (List.nodup_cons.1 hn).2
      · intro m hm
        simp only [List.map_append, List.map_cons, List.map_nil, List.mem_append, List.mem_singleton,
          not_or]
        refine ⟨hd m (List.mem_cons_of_mem _ hm), ?_⟩
        rintro rfl
        exact (List.nodup_cons.1 hn).1 hm

/-- The fields of the default layout. -/
def defaultFields (line : Str) : List Str :=
  [columns line 1 2, columns line 2 8, columns line 8 9, columns line 9 20, columns line 20 33,
   columns line 33 47, columns line 47 61, columns line 61 76, columns line 76 81,
   columns line 81 121]

theorem fieldsOf_default (line : Str) :
    PunchCard.fieldsOf line (PunchCard.layoutOf DEFAULT_WIDTH DEFAULT_FIELDS) =
      defaultFields line := by
  unfold PunchCard.fieldsOf DEFAULT_WIDTH DEFAULT_FIELDS defaultFields
  simp only [PunchCard.layoutOf, List.map_cons, List.map_nil]
  norm_num
  refine ⟨?_, ?_, ?_, ?_, ?_, ?_, ?_, ?_, ?_, ?_⟩ <;>
    (rw [slice_nonneg _ (by decide) (by decide)]; rfl)

/-- The line number entry of a record. -/
def numEntry (n : Int) : Dict Str RVal := if n ≠ 0 then [(py "linenum", .int n)] else []

/-- The value of a field in the record. -/
def val (f : Str) : RVal := PunchCard.ofEntry (PunchCard.entry f)

/-- The record of a card of the default layout. -/
def punchRecord (line : Str) (n : Int) : Dict Str RVal :=
  numEntry n ++
  [(py "column1", val (columns line 1 2)), (py "lognum", val (columns line 2 8)),
   (py "column8", val (columns line 8 9)), (py "label", val (columns line 9 20)),
   (py "operation", val (columns line 20 33)), (py "operand1", val (columns line 33 47)),
   (py "operand2", val (columns line 47 61)), (py "operand3", val (columns line 61 76)),
   (py "misc", val (columns line 76 81)), (py "remarks", val (columns line 81 121))]

theorem numEntry_keys (n : Int) : ∀ m ∈ DEFAULT_FIELDNAMES, m ∉ (numEntry n).map (·.1) := by
  intro m hm
  unfold numEntry
  split
  · have : ∀ m ∈ DEFAULT_FIELDNAMES, m ≠ py "linenum" := by decide
    simpa using this m hm
  · simp

theorem punch_eq (line : Str) (h : line.head? ≠ some '#') (fn : Option Str) (n : Int) :
    punchClass line DEFAULT_WIDTH DEFAULT_FIELDS fn n =
      .ok ⟨remove line '\n', PunchCard.layoutOf DEFAULT_WIDTH DEFAULT_FIELDS, fn, n, false,
        some ⟨defaultFields line, (defaultFields line).map PunchCard.entry, punchRecord line n⟩⟩ := by
  have hs : startsWith line '#' = false := by
    rw [Bool.eq_false_iff]; intro e; exact h (startsWith_iff.1 e)
  unfold punchClass PunchCard.init
  rw [hs]
  simp only [Bool.false_eq_true, if_false]
  have hf := fill_eq (defaultFields line) DEFAULT_FIELDNAMES (numEntry n) (by rfl) (by decide)
    (numEntry_keys n)
  rw [fieldsOf_default]
  unfold numEntry at hf
  rw [hf]
  rfl

/-- The code part of the record of an ARGUS card. -/
def argusRecord (line : Str) (n : Int) : Dict Str RVal :=
  if Card.isPRL (val (columns line 1 2)) then
    numEntry n ++
    [(py "column1", val (columns line 1 2)), (py "lognum", val (columns line 2 8)),
     (py "column8", val (columns line 8 9)), (py "label", .none), (py "operation", .none),
     (py "operand1", .none), (py "operand2", .none), (py "operand3", .none), (py "misc", .none),
     (py "remarks", .str (strip ((remove line '\n').drop 9))), (py "instruction", .none)]
  else
    punchRecord line n ++
      [(py "instruction",
        match PunchCard.entry (columns line 20 33) with
        | none => .none
        | some s => .str (strip (splitFirst s ',')))]

theorem sliceFrom_nat {α : Type} (s : List α) (k : Nat) : sliceFrom s (k : Int) = s.drop k := by
  unfold sliceFrom sliceBound
  rw [if_neg (by omega), Int.toNat_natCast]
  by_cases h : k ≤ s.length
  · rw [min_eq_left h]
  · rw [min_eq_right (by omega), List.drop_length, List.drop_of_length_le (by omega)]

theorem entry_some {f t : Str} : PunchCard.entry f = some t ↔ strip f = t ∧ t ≠ [] := by
  unfold PunchCard.entry
  split
  · rename_i h
    constructor
    · intro e; cases e
    · rintro ⟨rfl, hne⟩; exact absurd h hne
  · rename_i h
    constructor
    · intro e; cases e; exact ⟨rfl, h⟩
    · rintro ⟨rfl, hne⟩; rfl

theorem entry_none {f : Str} : PunchCard.entry f = none ↔ Blank f := by
  unfold PunchCard.entry
  split
  · rename_i h; simp [strip_nil_iff.1 h]
  · rename_i h; simp [mt strip_nil_iff.2 h]

theorem isEntry_entry (f : Str) : IsEntry f (PunchCard.entry f) := by
  cases h : PunchCard.entry f with
  | none => exact entry_none.1 h
  | some t =>
    obtain ⟨h1, h2⟩ := entry_some.1 h
    exact ⟨h2, stripped_iff.2 h1⟩

theorem instructionOf_val (f : Str) : Card.instructionOf (val f) = .ok
    (match PunchCard.entry f with
      | none => .none
      | some s => .str (strip (splitFirst s ','))) := by
  unfold val
  cases h : PunchCard.entry f with
  | none => rfl
  | some s =>
    simp only [PunchCard.ofEntry, Card.instructionOf]
    congr 2
    split
    · rfl
    · rename_i hc
      have hs : splitFirst s ',' = s := by
        apply beforeFirst_unique
        refine ⟨?_, Or.inl rfl⟩
        simpa using hc
      rw [hs]
      obtain ⟨e, -⟩ := entry_some.1 h
      rw [← e, strip_strip]

theorem finish_eq (line : Str) (n : Int) :
    Card.finish (remove line '\n') (punchRecord line n) = .ok (argusRecord line n) := by
  have h9 : sliceFrom (remove line '\n') 9 = (remove line '\n').drop 9 := sliceFrom_nat _ 9
  have hc1 : dgetE (punchRecord line n) (py "column1") = .ok (val (columns line 1 2)) := by
    unfold punchRecord numEntry; split <;> rfl
  have hb : Card.blankCode (remove line '\n') (punchRecord line n) = numEntry n ++
    [(py "column1", val (columns line 1 2)), (py "lognum", val (columns line 2 8)),
     (py "column8", val (columns line 8 9)), (py "label", .none), (py "operation", .none),
     (py "operand1", .none), (py "operand2", .none), (py "operand3", .none), (py "misc", .none),
     (py "remarks", .str (strip ((remove line '\n').drop 9)))] := by
    unfold Card.blankCode
    rw [h9]
    unfold punchRecord numEntry; split <;> rfl
  unfold Card.finish argusRecord
  rw [hc1]
  simp only [py_bind_ok, hb, h9]
  by_cases hp : Card.isPRL (val (columns line 1 2)) = true
  · rw [if_pos hp, if_pos hp]
    have e1 : ∀ (v : RVal) (l : Dict Str RVal),
        dgetE (numEntry n ++ (py "column1", v) :: l) (py "column1") = .ok v := by
      intro v l
      unfold numEntry; split <;> rfl
    rw [e1]
    simp only [py_bind_ok]
    have e2 : ∀ (r : Str), dset (numEntry n ++
        [(py "column1", val (columns line 1 2)), (py "lognum", val (columns line 2 8)),
         (py "column8", val (columns line 8 9)), (py "label", .none), (py "operation", .none),
         (py "operand1", .none), (py "operand2", .none), (py "operand3", .none), (py "misc", .none),
         (py "remarks", RVal.str r)]) (py "remarks") (.str r) = numEntry n ++
        [(py "column1", val (columns line 1 2)), (py "lognum", val (columns line 2 8)),
         (py "column8", val (columns line 8 9)), (py "label", .none), (py "operation", .none),
         (py "operand1", .none), (py "operand2", .none), (py "operand3", .none), (py "misc", .none),
         (py "remarks", .str r)] := by
      intro r
      unfold numEntry; split <;> rfl
    rw [e2, ite_self]
    have e3 : ∀ (a b c d : RVal) (l : Dict Str RVal),
        dgetE (numEntry n ++ (py "column1", a) :: (py "lognum", b) :: (py "column8", c) ::
          (py "label", d) :: (py "operation", .none) :: l) (py "operation") = .ok .none := by
      intros
      unfold numEntry; split <;> rfl
    rw [e3]
    simp only [py_bind_ok, Card.instructionOf, py_pure]
    congr 1
    unfold numEntry; split <;> rfl
  · rw [if_neg hp, if_neg hp, hc1]
    simp only [py_bind_ok]
    have hL : ¬ val (columns line 1 2) = .str (py "L") := by
      intro e; apply hp; rw [e]; decide
    rw [if_neg hL]
    have e3 : dgetE (punchRecord line n) (py "operation") = .ok (val (columns line 20 33)) := by
      unfold punchRecord numEntry; split <;> rfl
    rw [e3]
    simp only [py_bind_ok, instructionOf_val, py_pure]
    congr 1
    unfold punchRecord numEntry; split <;> rfl

theorem argus_eq (line : Str) (h : line.head? ≠ some '#') (fn : Option Str) (n : Int) :
    argusClass line DEFAULT_WIDTH DEFAULT_FIELDS fn n =
      .ok ⟨remove line '\n', PunchCard.layoutOf DEFAULT_WIDTH DEFAULT_FIELDS, fn, n, false,
        some ⟨defaultFields line, (defaultFields line).map PunchCard.entry, argusRecord line n⟩⟩ := by
  have hp := punch_eq line h fn n
  unfold punchClass at hp
  unfold argusClass Card.init
  rw [hp]
  simp only [finish_eq]

theorem column1_val (line : Str) (x : Char) (hx : isSpace x = false) :
    val (columns line 1 2) = .str [x] ↔ line.head? = some x := by
  unfold val
  cases line with
  | nil => simp [columns, PunchCard.entry, strip, PunchCard.ofEntry]
  | cons y t =>
    have e : columns (y :: t) 1 2 = [y] := by simp [columns]
    rw [e]
    by_cases hy : isSpace y = true
    · have : PunchCard.entry [y] = none := entry_none.2 (by intro c hc; simp at hc; rw [hc]; exact hy)
      rw [this]
      simp only [PunchCard.ofEntry, reduceCtorEq, List.head?_cons, Option.some.injEq, false_iff]
      rintro rfl
      rw [hx] at hy; cases hy
    · have : PunchCard.entry [y] = some [y] := by
        refine entry_some.2 ⟨stripped_iff.1 ⟨⟨?_, ?_⟩, [], [], blank_nil, blank_nil, rfl⟩, by simp⟩
        · intro c hc; cases hc; simpa using hy
        · intro c hc; cases hc; simpa using hy
      rw [this]
      simp [PunchCard.ofEntry]

theorem isPRL_iff (line : Str) : Card.isPRL (val (columns line 1 2)) = true ↔ PRL line := by
  unfold Card.isPRL PRL
  simp only [Bool.or_eq_true, decide_eq_true_eq]
  rw [column1_val line 'P' (by decide), column1_val line 'R' (by decide),
    column1_val line 'L' (by decide), or_assoc]

/-- Lookup in the record of an ARGUS card. -/
theorem argus_items (line : Str) (n : Int) :
    dgetE (argusRecord line n) (py "column1") = .ok (val (columns line 1 2)) ∧
    dgetE (argusRecord line n) (py "lognum") = .ok (val (columns line 2 8)) ∧
    dgetE (argusRecord line n) (py "column8") = .ok (val (columns line 8 9)) ∧
    (PRL line → dgetE (argusRecord line n) (py "label") = .ok .none ∧
      dgetE (argusRecord line n) (py "operation") = .ok .none ∧
      dgetE (argusRecord line n) (py "operand1") = .ok .none ∧
      dgetE (argusRecord line n) (py "operand2") = .ok .none ∧
      dgetE (argusRecord line n) (py "operand3") = .ok .none ∧
      dgetE (argusRecord line n) (py "misc") = .ok .none ∧
      dgetE (argusRecord line n) (py "instruction") = .ok .none ∧
      dgetE (argusRecord line n) (py "remarks") = .ok (.str (strip ((remove line '\n').drop 9)))) ∧
    (¬ PRL line → dgetE (argusRecord line n) (py "label") = .ok (val (columns line 9 20)) ∧
      dgetE (argusRecord line n) (py "operation") = .ok (val (columns line 20 33)) ∧
      dgetE (argusRecord line n) (py "operand1") = .ok (val (columns line 33 47)) ∧
      dgetE (argusRecord line n) (py "operand2") = .ok (val (columns line 47 61)) ∧
      dgetE (argusRecord line n) (py "operand3") = .ok (val (columns line 61 76)) ∧
      dgetE (argusRecord line n) (py "misc") = .ok (val (columns line 76 81)) ∧
      dgetE (argusRecord line n) (py "remarks") = .ok (val (columns line 81 121)) ∧
      dgetE (argusRecord line n) (py "instruction") = .ok
        (match PunchCard.entry (columns line 20 33) with
        | none => .none
        | some s => .str (strip (splitFirst s ',')))) := by
  unfold argusRecord
  by_cases h : PRL line
  · simp only [if_pos ((isPRL_iff line).2 h), h, not_true_eq_false, false_implies, true_implies, and_true]
    unfold numEntry
    split
    · exact ⟨rfl, rfl, rfl, rfl, rfl, rfl, rfl, rfl, rfl, rfl, rfl⟩
    · exact ⟨rfl, rfl, rfl, rfl, rfl, rfl, rfl, rfl, rfl, rfl, rfl⟩
  · simp only [if_neg (fun e => h ((isPRL_iff line).1 e)), h, not_false_eq_true, false_implies, true_implies, true_and]
    unfold punchRecord numEntry
    split
    · exact ⟨rfl, rfl, rfl, rfl, rfl, rfl, rfl, rfl, rfl, rfl, rfl⟩
    · exact ⟨rfl, rfl, rfl, rfl, rfl, rfl, rfl, rfl, rfl, rfl, rfl⟩

theorem columns_newline (line : Str) (a b : Nat) :
    ∃ e, Blank e ∧ columns (line ++ ['\n']) a b = columns line a b ++ e := by
  unfold columns
  rw [List.drop_append, List.take_append]
  refine ⟨_, ?_, rfl⟩
  intro c hc
  have := List.mem_of_mem_drop (List.mem_of_mem_take hc)
  simp only [List.mem_singleton] at this
  rw [this]; decide

theorem entry_newline (line : Str) (a b : Nat) :
    PunchCard.entry (columns (line ++ ['\n']) a b) = PunchCard.entry (columns line a b) := by
  obtain ⟨e, he, h⟩ := columns_newline line a b
  unfold PunchCard.entry
  rw [h, strip_append_blank he]

end H800
