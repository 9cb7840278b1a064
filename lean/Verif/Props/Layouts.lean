import Verif.Spec.Layouts
import Verif.Props.DeckLists
import Verif.Props.Cards
import Verif.Lemmas.Layout
import Verif.Lemmas.Listing

/-!
Property C231: cards laid out in any columns under any names.
-/

namespace H800

open Spec

/-- C231, in full: whatever the columns and the names, as many as there are fields, a card is made
of a line, and under the name of each field there is the text punched in its columns. -/
def C231_statement : Prop :=
  ∀ (line : Str) (width : Int) (cols : List Int) (names : List Str) (fn : Option Str) (n : Int),
    line.head? ≠ some '#' → cols.length ≤ names.length →
    ∃ c, PunchCard.init line width cols names fn n = .ok c ∧
      ∀ (i : Nat) (s e : Int) (name : Str), cols[i]? = some s →
        (cols[i + 1]? = some e ∨ (cols[i + 1]? = none ∧ e = width + 1)) → names[i]? = some name →
        ∃ v, c.item name = .ok v ∧ Entered (punched line s e) v

theorem slice_cut (s : Str) (a b : Int) : Cut s a b (slice s a b) := by
  unfold Cut slice
  have hp : ∀ i : Int, ∀ p : Nat, p < s.length →
      (pos s.length i ≤ (p : Int) ↔ sliceBound s.length i ≤ p) := by
    intro i p hp
    unfold pos sliceBound
    split <;> omega
  have hfil : ((List.range s.length).filter fun (p : Nat) =>
      decide (pos s.length a ≤ (p : Int) ∧ (p : Int) < pos s.length b)) =
      (List.range s.length).filter fun p =>
        decide (sliceBound s.length a ≤ p ∧ p < sliceBound s.length b) := by
    apply List.filter_congr
    intro p h
    have hlt := List.mem_range.1 h
    have h1 := hp a p hlt
    have h2 := hp b p hlt
    have : (pos s.length a ≤ (p : Int) ∧ (p : Int) < pos s.length b) ↔
        (sliceBound s.length a ≤ p ∧ p < sliceBound s.length b) := by
      rw [h1, ← not_le, h2, not_le]
    simp only [this]
  rw [hfil]
  have hb : sliceBound s.length b ≤ s.length := by unfold sliceBound; omega
  generalize sliceBound s.length a = x
  generalize sliceBound s.length b = y at hb
  clear hp hfil
  induction s generalizing x y with
  | nil => simp
  | cons c s ih =>
    rw [List.length_cons, List.range_succ_eq_map, List.filter_cons]
    cases y with
    | zero => simp
    | succ y =>
      have := ih (x - 1) y (by simpa using hb)
      have e : ((List.map Nat.succ (List.range s.length)).filter fun p =>
          decide (x ≤ p ∧ p < y + 1)).filterMap ((c :: s)[·]?) =
          ((List.range s.length).filter fun p => decide (x - 1 ≤ p ∧ p < y)).filterMap
            (s[·]?) := by
        rw [List.filter_map, List.filterMap_map]
        congr 1
        · apply List.filter_congr
          intro p _
          simp only [Function.comp, Nat.succ_eq_add_one, decide_eq_decide]
          omega
      cases x with
      | zero =>
        rw [if_pos (by simp), List.filterMap_cons_some (b := c) (by simp), e, ← this]
        simp
      | succ x =>
        rw [if_neg (by simp), e, ← this]
        simp

theorem fieldIs_iff (line : Str) (width : Int) (cols : List Int) (i : Nat) (f : Str) :
    FieldIs line width cols i f ↔
      (PunchCard.fieldsOf line (PunchCard.layoutOf width cols))[i]? = some f := by
  have hcut : ∀ a b, Cut line a b f ↔ f = slice line a b := by
    intro a b
    have := slice_cut line a b
    unfold Cut at *
    rw [← this]
  unfold FieldIs PunchCard.fieldsOf
  rw [List.getElem?_map]
  induction cols generalizing i with
  | nil => simp [PunchCard.layoutOf]
  | cons c t ih =>
    cases t with
    | nil =>
      cases i with
      | zero =>
        simp only [hcut, List.getElem?_cons_zero, PunchCard.layoutOf, Option.map_some,
          Option.some.injEq]
        constructor
        · rintro ⟨s, e, rfl, h | ⟨_, rfl⟩, rfl⟩
          · simp at h
          · congr 1; omega
        · rintro rfl
          exact ⟨_, _, rfl, .inr ⟨by simp, rfl⟩, by congr 1; omega⟩
      | succ i => simp [PunchCard.layoutOf]
    | cons d t =>
      cases i with
      | zero =>
        simp only [hcut, List.getElem?_cons_zero, PunchCard.layoutOf, Option.map_some,
          Option.some.injEq]
        constructor
        · rintro ⟨s, e, rfl, h | ⟨h, _⟩, rfl⟩
          · simp only [zero_add, List.getElem?_cons_succ, List.getElem?_cons_zero,
              Option.some.injEq] at h
            subst h
            congr 1; omega
          · simp at h
        · rintro rfl
          exact ⟨_, _, rfl, .inl (by simp; rfl), by congr 1; omega⟩
      | succ i =>
        rw [PunchCard.layoutOf, List.getElem?_cons_succ]
        simp only [List.getElem?_cons_succ]
        exact ih i

theorem layoutOf_length (width : Int) (cols : List Int) :
    (PunchCard.layoutOf width cols).length = cols.length := by
  induction cols with
  | nil => rfl
  | cons a t ih =>
    cases t with
    | nil => rfl
    | cons b t => rw [PunchCard.layoutOf, List.length_cons, ih]; rfl

theorem lastNamed_zero (n k : Str) (ns : List Str) (m : Nat) :
    LastNamed (n :: ns) (m + 1) k 0 ↔ n = k ∧ k ∉ ns.take m := by
  unfold LastNamed
  constructor
  · rintro ⟨_, h1, h2⟩
    refine ⟨by simpa using h1, ?_⟩
    intro hk
    obtain ⟨j, hj⟩ := List.mem_iff_getElem?.1 hk
    rw [List.getElem?_take] at hj
    split at hj
    · next hlt => exact h2 (j + 1) (by omega) (by omega) (by simpa using hj)
    · cases hj
  · rintro ⟨rfl, h⟩
    refine ⟨by omega, by simp, ?_⟩
    intro j h0 hj he
    obtain ⟨j, rfl⟩ : ∃ i, j = i + 1 := ⟨j - 1, by omega⟩
    refine h (List.mem_iff_getElem?.2 ⟨j, ?_⟩)
    rw [List.getElem?_take, if_pos (by omega)]
    simpa using he

theorem lastNamed_succ (n k : Str) (ns : List Str) (m i : Nat) :
    LastNamed (n :: ns) (m + 1) k (i + 1) ↔ LastNamed ns m k i := by
  unfold LastNamed
  refine and_congr (by omega) (and_congr (by simp) ?_)
  constructor
  · intro h j h1 h2
    simpa using h (j + 1) (by omega) (by omega)
  · intro h j h1 h2
    obtain ⟨j, rfl⟩ : ∃ i, j = i + 1 := ⟨j - 1, by omega⟩
    simpa using h j (by omega) (by omega)

/-- The record filled under any names. -/
theorem fill_any (fs names : List Str) (r : Dict Str RVal) (hl : fs.length ≤ names.length) :
    ∃ r', PunchCard.fill fs names r = .ok r' ∧ ∀ k v, dget r' k = some v ↔
      (∃ i f, LastNamed names fs.length k i ∧ fs[i]? = some f ∧
        v = PunchCard.ofEntry (PunchCard.entry f)) ∨
      (dget r k = some v ∧ k ∉ names.take fs.length) := by
  induction fs generalizing names r with
  | nil => exact ⟨r, by rw [PunchCard.fill], by simp [LastNamed]⟩
  | cons f fs ih =>
    cases names with
    | nil => simp at hl
    | cons n ns =>
      obtain ⟨r', h1, h2⟩ := ih ns (dset r n (PunchCard.ofEntry (PunchCard.entry f)))
        (by simpa using hl)
      refine ⟨r', by rw [PunchCard.fill, h1], ?_⟩
      intro k v
      rw [h2 k v, dset_get, List.length_cons, List.take_succ_cons, List.mem_cons]
      constructor
      · rintro (⟨i, g, hi, hg, hv⟩ | ⟨h, hk⟩)
        · exact .inl ⟨i + 1, g, (lastNamed_succ ..).2 hi, by simpa using hg, hv⟩
        · split at h
          · next e =>
            exact .inl ⟨0, f, (lastNamed_zero ..).2 ⟨e, hk⟩, rfl, by simpa using h.symm⟩
          · next e => exact .inr ⟨h, by rintro (e' | e'); exacts [e e'.symm, hk e']⟩
      · rintro (⟨i, g, hi, hg, hv⟩ | ⟨h, hk⟩)
        · cases i with
          | zero =>
            obtain ⟨rfl, hk⟩ := (lastNamed_zero ..).1 hi
            refine .inr ⟨?_, hk⟩
            rw [if_pos rfl, hv]
            have : f = g := by simpa using hg
            rw [this]
          | succ i => exact .inl ⟨i, g, (lastNamed_succ ..).1 hi, by simpa using hg, hv⟩
        · push Not at hk
          exact .inr ⟨by rw [if_neg (Ne.symm hk.1)]; exact h, hk.2⟩

theorem fill_short (fs names : List Str) (r : Dict Str RVal) (hl : names.length < fs.length) :
    PunchCard.fill fs names r = .error .indexError := by
  induction fs generalizing names r with
  | nil => simp at hl
  | cons f fs ih =>
    cases names with
    | nil => rw [PunchCard.fill]
    | cons n ns => rw [PunchCard.fill, ih _ _ (by simpa using hl)]

theorem entered_iff (f : Str) (v : RVal) :
    Entered f v ↔ v = PunchCard.ofEntry (PunchCard.entry f) := by
  cases v with
  | none =>
    rw [Entered, ← entry_none]
    cases PunchCard.entry f <;> simp [PunchCard.ofEntry]
  | str t =>
    have := isEntry_entry f
    rw [Entered]
    cases he : PunchCard.entry f with
    | none =>
      simp only [PunchCard.ofEntry, reduceCtorEq, iff_false, not_and]
      intro ht hs
      have := entry_none.1 he
      obtain ⟨⟨h1, _⟩, a, b, _, _, rfl⟩ := hs
      cases t with
      | nil => exact ht rfl
      | cons c t =>
        have h := this c (by simp)
        rw [h1 c (by simp)] at h
        cases h
    | some u =>
      obtain ⟨hu, hne⟩ := entry_some.1 he
      simp only [PunchCard.ofEntry, RVal.str.injEq]
      constructor
      · rintro ⟨_, hs⟩
        rw [← hu]
        exact (stripped_iff.1 hs).symm
      · rintro rfl
        exact ⟨hne, stripped_iff.2 hu⟩
  | int n =>
    rw [Entered]
    cases PunchCard.entry f <;> simp [PunchCard.ofEntry]

/-- The card made of a line that is not a comment. -/
theorem punch_any (line : Str) (width : Int) (cols : List Int) (names : List Str)
    (fn : Option Str) (n : Int) (h : line.head? ≠ some '#') (hlen : cols.length ≤ names.length) :
    ∃ r, PunchCard.init line width cols names fn n = .ok ⟨remove line '\n',
        PunchCard.layoutOf width cols, fn, n, false,
        some ⟨PunchCard.fieldsOf line (PunchCard.layoutOf width cols),
          (PunchCard.fieldsOf line (PunchCard.layoutOf width cols)).map PunchCard.entry, r⟩⟩ ∧
      ∀ k v, dget r k = some v ↔
        (∃ i f, LastNamed names cols.length k i ∧ FieldIs line width cols i f ∧ Entered f v) ∨
        (k = py "linenum" ∧ n ≠ 0 ∧ v = .int n ∧ ¬ Named cols names k) := by
  have hs : startsWith line '#' = false := by
    rw [Bool.eq_false_iff]; intro e; exact h (startsWith_iff.1 e)
  have hFl : (PunchCard.fieldsOf line (PunchCard.layoutOf width cols)).length = cols.length := by
    unfold PunchCard.fieldsOf; rw [List.length_map, layoutOf_length]
  obtain ⟨r, hr, hd⟩ := fill_any (PunchCard.fieldsOf line (PunchCard.layoutOf width cols)) names
    (if n ≠ 0 then [(py "linenum", .int n)] else []) (by omega)
  refine ⟨r, ?_, ?_⟩
  · unfold PunchCard.init
    rw [hs]
    simp only [Bool.false_eq_true, if_false]
    rw [hr]
  · intro k v
    rw [hd, hFl]
    refine or_congr ?_ ?_
    · simp only [fieldIs_iff, entered_iff]
    · unfold Named
      by_cases hn : n = 0
      · simp [hn, dget]
      · rw [if_pos hn]
        simp only [dget]
        constructor
        · rintro ⟨h1, h2⟩
          split at h1
          · next e => exact ⟨e.symm, hn, by simpa using h1.symm, h2⟩
          · cases h1
        · rintro ⟨rfl, _, rfl, h2⟩
          exact ⟨by simp, h2⟩

theorem punch_short (line : Str) (width : Int) (cols : List Int) (names : List Str)
    (fn : Option Str) (n : Int) (h : line.head? ≠ some '#') (hlen : names.length < cols.length) :
    PunchCard.init line width cols names fn n = .error .indexError := by
  have hs : startsWith line '#' = false := by
    rw [Bool.eq_false_iff]; intro e; exact h (startsWith_iff.1 e)
  unfold PunchCard.init
  rw [hs]
  simp only [Bool.false_eq_true, if_false]
  rw [fill_short _ _ _ (by unfold PunchCard.fieldsOf; rw [List.length_map, layoutOf_length]; omega)]

/-- C231: a card cannot be made exactly if there are fewer names than fields. -/
theorem C231_made_partial (line : Str) (width : Int) (cols : List Int) (names : List Str)
    (fn : Option Str) (n : Int) (h : line.head? ≠ some '#') :
    (cols.length ≤ names.length → ∃ c, PunchCard.init line width cols names fn n = .ok c) ∧
    (names.length < cols.length →
      PunchCard.init line width cols names fn n = .error .indexError) :=
  ⟨fun hl => (punch_any line width cols names fn n h hl).elim fun _ h => ⟨_, h.1⟩,
    punch_short line width cols names fn n h⟩

/-- C231, what holds for any columns, in any order, and any names: the fields are the pieces of the
line between the columns; under a name there is the text of the last field of that name. The line
number is there unless a field has its name. -/
theorem C231_record_partial (line : Str) (width : Int) (cols : List Int) (names : List Str)
    (fn : Option Str) (n : Int) (h : line.head? ≠ some '#') (hlen : cols.length ≤ names.length) :
    ∃ c fs, PunchCard.init line width cols names fn n = .ok c ∧ c.fields = .ok fs ∧
      (∀ i f, fs[i]? = some f ↔ FieldIs line width cols i f) ∧
      ∀ k v, c.item k = .ok v ↔
        (∃ i f, LastNamed names cols.length k i ∧ FieldIs line width cols i f ∧ Entered f v) ∨
        (k = py "linenum" ∧ n ≠ 0 ∧ v = .int n ∧ ¬ Named cols names k) := by
  obtain ⟨r, hr, hd⟩ := punch_any line width cols names fn n h hlen
  refine ⟨_, _, hr, rfl, fun i f => (fieldIs_iff ..).symm, ?_⟩
  intro k v
  rw [← hd k v]
  exact dgetE_ok

/-- Two fields called `a`, the first column standing before the line. -/
example : ∃ c, PunchCard.init (py "ABCDE") 4 [0, 3, 2] [py "a", py "linenum", py "a"] none 7 = .ok c ∧
    c.fields = .ok [[], [], py "BCD"] ∧ c.item (py "a") = .ok (.str (py "BCD")) ∧
    c.item (py "linenum") = .ok .none := ⟨_, rfl, rfl, rfl, rfl⟩

theorem slice_columns_any (s : Str) {a b : Int} (ha : 1 ≤ a) (hb : 1 ≤ b) :
    slice s (a - 1) (b - 1) = columns s a.toNat b.toNat := by
  by_cases hab : a ≤ b
  · have := slice_columns s (c := a) (w := b - a) ha (by omega)
    rw [show a - 1 + (b - a) = b - 1 by omega] at this
    rw [this]
    congr 1
    omega
  · unfold slice columns
    have : b.toNat - a.toNat = 0 := by omega
    rw [this, List.take_zero]
    have : sliceBound s.length (b - 1) - sliceBound s.length (a - 1) = 0 := by
      unfold sliceBound
      rw [if_neg (by omega), if_neg (by omega)]
      omega
    rw [this, List.take_zero]

theorem fieldIs_columns {line : Str} {width : Int} {cols : List Int} {i : Nat} {s e : Int}
    (hc : ∀ x ∈ cols, 1 ≤ x) (hw : 0 ≤ width) (hs : cols[i]? = some s)
    (he : cols[i + 1]? = some e ∨ (cols[i + 1]? = none ∧ e = width + 1)) :
    FieldIs line width cols i (punched line s e) := by
  refine ⟨s, e, hs, he, ?_⟩
  have h1 : 1 ≤ s := hc s (List.mem_of_getElem? hs)
  have h2 : 1 ≤ e := by
    rcases he with he | ⟨_, rfl⟩
    · exact hc e (List.mem_of_getElem? he)
    · omega
  rw [punched, max_eq_right h1, max_eq_right h2, ← slice_columns_any line h1 h2]
  exact slice_cut ..

/-- C231, the part that holds as stated: if the columns count from 1 and the names of the fields
differ, in whatever order the columns are. -/
theorem C231_columns_partial (line : Str) (width : Int) (cols : List Int) (names : List Str)
    (fn : Option Str) (n : Int) (h : line.head? ≠ some '#') (hlen : cols.length ≤ names.length)
    (hc : ∀ x ∈ cols, 1 ≤ x) (hw : 0 ≤ width) (hn : (names.take cols.length).Nodup) :
    ∃ c, PunchCard.init line width cols names fn n = .ok c ∧
      ∀ (i : Nat) (s e : Int) (name : Str), cols[i]? = some s →
        (cols[i + 1]? = some e ∨ (cols[i + 1]? = none ∧ e = width + 1)) → names[i]? = some name →
        ∃ v, c.item name = .ok v ∧ Entered (punched line s e) v := by
  obtain ⟨c, fs, h1, _, _, h2⟩ := C231_record_partial line width cols names fn n h hlen
  refine ⟨c, h1, ?_⟩
  intro i s e name hs he hname
  refine ⟨_, (h2 _ _).2 (.inl ⟨i, _, ⟨?_, hname, ?_⟩, fieldIs_columns hc hw hs he,
    (entered_iff _ _).2 rfl⟩), (entered_iff _ _).2 rfl⟩
  · exact (List.getElem?_eq_some_iff.1 hs).1
  · intro j hij hj he
    have hi : i < cols.length := (List.getElem?_eq_some_iff.1 hs).1
    have e1 : (names.take cols.length)[i]? = some name := by
      rw [List.getElem?_take, if_pos hi, hname]
    have e2 : (names.take cols.length)[j]? = some name := by
      rw [List.getElem?_take, if_pos hj, he]
    have := (List.nodup_iff_getElem?_ne_getElem?.1 hn) i j hij
      (List.getElem?_eq_some_iff.1 e2).1
    exact this (e1.trans e2.symm)

/-- Columns in falling order. -/
example : ∃ c, PunchCard.init (py "ABCDE") 5 [4, 1] [py "a", py "b"] none 0 = .ok c ∧
    c.item (py "a") = .ok .none ∧ c.item (py "b") = .ok (.str (py "ABCDE")) := ⟨_, rfl, rfl, rfl⟩

/-- C231 is false: of two fields of the same name the first cannot be found. -/
theorem C231_refuted : ¬ C231_statement := by
  intro h
  obtain ⟨c, hc, hi⟩ := h (py "AB") 2 [1, 2] [py "a", py "a"] none 0 (by decide) (by decide)
  obtain ⟨v, hv, he⟩ := hi 0 1 2 (py "a") rfl (.inl rfl) rfl
  have hc' : c.item (py "a") = .ok (.str (py "B")) := by
    have : PunchCard.init (py "AB") 2 [1, 2] [py "a", py "a"] none 0 = .ok _ := rfl
    rw [this] at hc
    cases hc
    rfl
  rw [hc'] at hv
  cases hv
  rw [entered_iff] at he
  revert he
  decide

/-- C231 is false also of different names: a field from column 0 begins at the last character of
the line. -/
theorem C231_refuted_column : ∃ c, PunchCard.init (py "AB") 1 [0] [py "a"] none 0 = .ok c ∧
    c.item (py "a") = .ok .none ∧ Entered (punched (py "AB") 0 2) (.str (py "A")) :=
  ⟨_, rfl, rfl, by rw [entered_iff]; decide⟩

theorem ofEntry_char (f : Str) (x : Char) :
    PunchCard.ofEntry (PunchCard.entry f) = .str [x] ↔ Stripped f [x] := by
  rw [eq_comm, ← entered_iff]
  simp [Entered]

theorem lastNamed_unique {names : List Str} {k : Nat} {name : Str} {i j : Nat}
    (hi : LastNamed names k name i) (hj : LastNamed names k name j) : i = j := by
  rcases lt_trichotomy i j with h | h | h
  · exact absurd hj.2.1 (hi.2.2 j h hj.1)
  · exact h
  · exact absurd hi.2.1 (hj.2.2 i h hi.1)

theorem named_iff {cols : List Int} {names : List Str} {name : Str} :
    Named cols names name ↔ ∃ i, LastNamed names cols.length name i := by
  unfold Named
  generalize cols.length = k
  constructor
  · intro h
    induction names generalizing k with
    | nil => simp at h
    | cons a t ih =>
      cases k with
      | zero => simp at h
      | succ k =>
        by_cases ht : name ∈ t.take k
        · obtain ⟨i, hi⟩ := ih k ht
          exact ⟨i + 1, (lastNamed_succ ..).2 hi⟩
        · rw [List.take_succ_cons, List.mem_cons] at h
          exact ⟨0, (lastNamed_zero ..).2 ⟨(h.resolve_right ht).symm, ht⟩⟩
  · rintro ⟨i, hi, hn, _⟩
    rw [List.mem_iff_getElem?]
    exact ⟨i, by rw [List.getElem?_take, if_pos hi, hn]⟩

/-- A record in terms of the fields: what is under a name other than that of the line number. -/
theorem record_get {line : Str} {width : Int} {cols : List Int} {names : List Str} {n : Int}
    {r : Dict Str RVal} (hr : ∀ k v, dget r k = some v ↔
        (∃ i f, LastNamed names cols.length k i ∧ FieldIs line width cols i f ∧ Entered f v) ∨
        (k = py "linenum" ∧ n ≠ 0 ∧ v = .int n ∧ ¬ Named cols names k))
    {k : Str} (hk : k ≠ py "linenum") :
    (¬ Named cols names k ∧ dget r k = none) ∨
    ∃ i f, LastNamed names cols.length k i ∧ FieldIs line width cols i f ∧
      dget r k = some (PunchCard.ofEntry (PunchCard.entry f)) := by
  by_cases hn : Named cols names k
  · obtain ⟨i, hi⟩ := named_iff.1 hn
    have hlt : i < (PunchCard.fieldsOf line (PunchCard.layoutOf width cols)).length := by
      unfold PunchCard.fieldsOf
      rw [List.length_map, layoutOf_length]
      exact hi.1
    have hf := (fieldIs_iff line width cols i _).2 (List.getElem?_eq_getElem hlt)
    exact .inr ⟨i, _, hi, hf, (hr _ _).2 (.inl ⟨i, _, hi, hf, (entered_iff _ _).2 rfl⟩)⟩
  · refine .inl ⟨hn, ?_⟩
    cases h : dget r k with
    | none => rfl
    | some v =>
      rcases (hr _ _).1 h with ⟨i, _, hi, _⟩ | ⟨e, _⟩
      · exact absurd (named_iff.2 ⟨i, hi⟩) hn
      · exact absurd e hk

theorem fieldIs_unique {line : Str} {width : Int} {cols : List Int} {i : Nat} {f g : Str}
    (hf : FieldIs line width cols i f) (hg : FieldIs line width cols i g) : f = g := by
  rw [fieldIs_iff] at hf hg
  rw [hf] at hg
  exact Option.some.inj hg

/-- The names that the constructor of an ARGUS card sets on P, R and L cards. -/
def prlNames : List Str := [py "label", py "operation", py "operand1", py "operand2", py "operand3",
  py "misc", py "instruction", py "remarks"]

theorem blankCode_get (line : Str) (r : Dict Str RVal) (k : Str) :
    dget (Card.blankCode line r) k =
      if k = py "remarks" then some (.str (strip (sliceFrom line 9)))
      else if k ∈ prlNames ∧ k ≠ py "instruction" then some .none else dget r k := by
  unfold Card.blankCode prlNames
  simp only [dset_get]
  by_cases h0 : k = py "remarks"
  · simp [h0]
  · by_cases h1 : k = py "misc"
    · subst h1; rfl
    by_cases h2 : k = py "operand3"
    · subst h2; rfl
    by_cases h3 : k = py "operand2"
    · subst h3; rfl
    by_cases h4 : k = py "operand1"
    · subst h4; rfl
    by_cases h5 : k = py "operation"
    · subst h5; rfl
    by_cases h6 : k = py "label"
    · subst h6; rfl
    rw [if_neg (Ne.symm h0), if_neg (Ne.symm h1), if_neg (Ne.symm h2), if_neg (Ne.symm h3),
      if_neg (Ne.symm h4), if_neg (Ne.symm h5), if_neg (Ne.symm h6), if_neg h0, if_neg]
    simp only [List.mem_cons, List.not_mem_nil, or_false, not_and, not_not]
    rintro (h | h | h | h | h | h | h | h)
    exacts [absurd h h6, absurd h h5, absurd h h4, absurd h h3, absurd h h2, absurd h h1, h,
      absurd h h0]

theorem marked_iff {line : Str} {width : Int} {cols : List Int} {names : List Str} {i : Nat}
    {f : Str} (hi : LastNamed names cols.length (py "column1") i) (hf : FieldIs line width cols i f)
    (x : Char) : Marked line width cols names x ↔
      PunchCard.ofEntry (PunchCard.entry f) = .str [x] := by
  rw [ofEntry_char]
  constructor
  · rintro ⟨j, g, hj, hg, hs⟩
    obtain rfl := lastNamed_unique hi hj
    rwa [fieldIs_unique hf hg]
  · exact fun hs => ⟨i, f, hi, hf, hs⟩

/-- C231: an ARGUS card can be made if the fields have the names that it needs, whatever else they
are called. An ordinary card has what a plain card has, and the instruction; a P, R or L card has no
code, and remarks from column 10 on. Otherwise the constructor fails: with an AttributeError for a
comment, an IndexError if there are fewer names than fields, and else a KeyError. -/
theorem C231_argus_partial (line : Str) (width : Int) (cols : List Int) (names : List Str)
    (fn : Option Str) (n : Int) :
    (line.head? = some '#' → Card.init line width cols names fn n = .error .attributeError) ∧
    (line.head? ≠ some '#' → names.length < cols.length →
      Card.init line width cols names fn n = .error .indexError) ∧
    (line.head? ≠ some '#' → cols.length ≤ names.length → ¬ Usable line width cols names →
      Card.init line width cols names fn n = .error .keyError) ∧
    (line.head? ≠ some '#' → cols.length ≤ names.length → Usable line width cols names →
      ∃ p c, PunchCard.init line width cols names fn n = .ok p ∧
        Card.init line width cols names fn n = .ok c ∧ c.line = p.line ∧ c.fields = p.fields ∧
        c.strippedFields = p.strippedFields ∧
        ((∀ x, Marked line width cols names x → x ∉ ['P', 'R', 'L']) →
          (∀ k, k ≠ py "instruction" → c.item k = p.item k) ∧
          (p.item (py "operation") = .ok .none → c.item (py "instruction") = .ok .none) ∧
          ∀ op, p.item (py "operation") = .ok (.str op) → ∃ a ins, BeforeFirst ',' op a ∧
            Stripped a ins ∧ c.item (py "instruction") = .ok (.str ins)) ∧
        (∀ x ∈ ['P', 'R', 'L'], Marked line width cols names x →
          (∀ k ∉ [py "label", py "operation", py "operand1", py "operand2", py "operand3",
            py "misc", py "instruction", py "remarks"], c.item k = p.item k) ∧
          (∀ k ∈ [py "label", py "operation", py "operand1", py "operand2", py "operand3",
            py "misc", py "instruction"], c.item k = .ok .none) ∧
          ∃ t, Stripped ((line.filter (· ≠ '\n')).drop 9) t ∧
            c.item (py "remarks") = .ok (.str t))) := by
  refine ⟨C52_argus line width cols names fn n, ?_, ?_, ?_⟩
  · intro h hl
    unfold Card.init
    rw [punch_short line width cols names fn n h hl]
  · intro h hl hu
    obtain ⟨r, hp, hr⟩ := punch_any line width cols names fn n h hl
    unfold Card.init
    rw [hp]
    dsimp only
    have : Card.finish (remove line '\n') r = .error .keyError := by
      unfold Card.finish
      rcases record_get hr (k := py "column1") (by decide) with ⟨_, h1⟩ | ⟨i, f, hi, hf, h1⟩
      · rw [dgetE, h1]; rfl
      · have hm := marked_iff hi hf
        have hnp : Card.isPRL (PunchCard.ofEntry (PunchCard.entry f)) = false := by
          rw [Bool.eq_false_iff]
          intro e
          refine hu ⟨named_iff.2 ⟨i, hi⟩, .inr ?_⟩
          rw [hm, hm, hm]
          simpa [Card.isPRL, or_assoc] using e
        have hnl : PunchCard.ofEntry (PunchCard.entry f) ≠ .str (py "L") := by
          intro e; rw [e] at hnp; exact absurd hnp (by decide)
        have ho : dget r (py "operation") = none := by
          rcases record_get hr (k := py "operation") (by decide) with ⟨_, h1⟩ | ⟨j, _, hj, _, _⟩
          · exact h1
          · exact absurd ⟨named_iff.2 ⟨i, hi⟩, .inl (named_iff.2 ⟨j, hj⟩)⟩ hu
        rw [dgetE_ok.2 h1]
        simp only [py_bind_ok, hnp, Bool.false_eq_true, if_false]
        rw [dgetE_ok.2 h1]
        simp only [py_bind_ok, if_neg hnl]
        rw [dgetE, ho]
        rfl
    rw [this]
  · intro h hl hu
    obtain ⟨r, hp, hr⟩ := punch_any line width cols names fn n h hl
    obtain ⟨h1, h2⟩ := hu
    rcases record_get hr (k := py "column1") (by decide) with ⟨hn, _⟩ | ⟨i, f, hi, hf, hc1⟩
    · exact absurd h1 hn
    have hm := marked_iff hi hf
    by_cases hprl : Card.isPRL (PunchCard.ofEntry (PunchCard.entry f)) = true
    · have hfin : ∃ r', Card.finish (remove line '\n') r = .ok r' ∧ ∀ k, dget r' k =
          if k = py "instruction" then some .none
          else dget (Card.blankCode (remove line '\n') r) k := by
        unfold Card.finish
        rw [dgetE_ok.2 hc1]
        simp only [py_bind_ok, hprl, if_true]
        have hc1' : dget (Card.blankCode (remove line '\n') r) (py "column1") =
            some (PunchCard.ofEntry (PunchCard.entry f)) := by
          rw [blankCode_get, if_neg (by decide), if_neg (by decide), hc1]
        rw [dgetE_ok.2 hc1']
        simp only [py_bind_ok]
        generalize hr2 : (if PunchCard.ofEntry (PunchCard.entry f) = .str (py "L") then
          dset (Card.blankCode (remove line '\n') r) (py "remarks")
            (.str (strip (sliceFrom (remove line '\n') 9)))
          else Card.blankCode (remove line '\n') r) = r2
        have h2g : ∀ k, dget r2 k = dget (Card.blankCode (remove line '\n') r) k := by
          intro k
          rw [← hr2]
          split
          · rw [dset_get]
            split
            · next e => subst e; rw [blankCode_get, if_pos rfl]
            · rfl
          · rfl
        have hop : dget r2 (py "operation") = some .none := by
          rw [h2g, blankCode_get, if_neg (by decide), if_pos (by decide)]
        rw [dgetE_ok.2 hop]
        refine ⟨dset r2 (py "instruction") .none, rfl, ?_⟩
        intro k
        rw [dset_get, h2g]
        simp only [eq_comm (a := py "instruction")]
      obtain ⟨r', hr', hg⟩ := hfin
      have hci : Card.init line width cols names fn n = .ok ⟨remove line '\n',
          PunchCard.layoutOf width cols, fn, n, false,
          some ⟨PunchCard.fieldsOf line (PunchCard.layoutOf width cols),
            (PunchCard.fieldsOf line (PunchCard.layoutOf width cols)).map PunchCard.entry, r'⟩⟩ := by
        unfold Card.init
        rw [hp]
        dsimp only
        rw [hr']
      refine ⟨_, _, hp, hci, rfl, rfl, rfl, ?_, ?_⟩
      · intro hno
        exfalso
        rcases (by simpa [Card.isPRL, or_assoc] using hprl :
          PunchCard.ofEntry (PunchCard.entry f) = .str (py "P") ∨
          PunchCard.ofEntry (PunchCard.entry f) = .str (py "R") ∨
          PunchCard.ofEntry (PunchCard.entry f) = .str (py "L")) with e | e | e
        · exact hno _ ((hm 'P').2 e) (by simp)
        · exact hno _ ((hm 'R').2 e) (by simp)
        · exact hno _ ((hm 'L').2 e) (by simp)
      · intro x _ _
        refine ⟨?_, ?_, strip ((line.filter (· ≠ '\n')).drop 9), stripped_iff.2 rfl, ?_⟩
        · intro k hk
          change dgetE r' k = dgetE r k
          rw [dgetE, dgetE, hg, if_neg, blankCode_get, if_neg, if_neg]
          · exact fun e => hk e.1
          · rintro rfl; exact hk (by decide)
          · rintro rfl; exact hk (by decide)
        · intro k hk
          change dgetE r' k = _
          rw [dgetE_ok, hg]
          split
          · rfl
          · rename_i hne
            have hrem : k ≠ py "remarks" := by rintro rfl; revert hk; decide
            have hmem : k ∈ prlNames := by
              unfold prlNames
              simp only [List.mem_cons, List.not_mem_nil, or_false] at hk ⊢
              tauto
            rw [blankCode_get, if_neg hrem, if_pos ⟨hmem, hne⟩]
        · change dgetE r' _ = _
          rw [dgetE_ok, hg, if_neg (by decide), blankCode_get, if_pos rfl, ← sliceFrom_nat]
          rfl
    · have hnp : Card.isPRL (PunchCard.ofEntry (PunchCard.entry f)) = false := by simpa using hprl
      have hnl : PunchCard.ofEntry (PunchCard.entry f) ≠ .str (py "L") := by
        intro e; rw [e] at hnp; exact absurd hnp (by decide)
      have hnm : ∀ x ∈ ['P', 'R', 'L'], ¬ Marked line width cols names x := by
        intro x hx hmx
        rw [hm] at hmx
        apply hprl
        rw [hmx]
        simp only [List.mem_cons, List.not_mem_nil, or_false] at hx
        rcases hx with rfl | rfl | rfl <;> decide
      have hno : Named cols names (py "operation") := by
        rcases h2 with h2 | h2 | h2 | h2
        · exact h2
        · exact absurd h2 (hnm _ (by simp))
        · exact absurd h2 (hnm _ (by simp))
        · exact absurd h2 (hnm _ (by simp))
      rcases record_get hr (k := py "operation") (by decide) with ⟨hn, _⟩ | ⟨j, g, hj, hg, hop⟩
      · exact absurd hno hn
      have hfin : Card.finish (remove line '\n') r = .ok (dset r (py "instruction")
          (match PunchCard.entry g with
            | none => .none
            | some s => .str (strip (splitFirst s ',')))) := by
        unfold Card.finish
        rw [dgetE_ok.2 hc1]
        simp only [py_bind_ok, hnp, Bool.false_eq_true, if_false]
        rw [dgetE_ok.2 hc1]
        simp only [py_bind_ok, if_neg hnl]
        rw [dgetE_ok.2 hop]
        simp only [py_bind_ok]
        have := instructionOf_val g
        rw [val] at this
        rw [this]
        rfl
      have hci : Card.init line width cols names fn n = .ok ⟨remove line '\n',
          PunchCard.layoutOf width cols, fn, n, false,
          some ⟨PunchCard.fieldsOf line (PunchCard.layoutOf width cols),
            (PunchCard.fieldsOf line (PunchCard.layoutOf width cols)).map PunchCard.entry, dset r (py "instruction")
              (match PunchCard.entry g with
                | none => .none
                | some s => .str (strip (splitFirst s ',')))⟩⟩ := by
        unfold Card.init
        rw [hp]
        dsimp only
        rw [hfin]
      refine ⟨_, _, hp, hci, rfl, rfl, rfl, ?_, ?_⟩
      · intro _
        refine ⟨?_, ?_, ?_⟩
        · intro k hk
          change dgetE (dset r _ _) k = dgetE r k
          rw [dgetE, dgetE, dset_get, if_neg (Ne.symm hk)]
        · intro ho
          have ho' : dgetE r (py "operation") = .ok .none := ho
          rw [dgetE_ok, hop] at ho'
          change dgetE (dset r _ _) _ = _
          rw [dgetE_ok, dset_get, if_pos rfl]
          cases he : PunchCard.entry g with
          | none => rfl
          | some s => rw [he] at ho'; cases ho'
        · intro op ho
          have ho' : dgetE r (py "operation") = .ok (.str op) := ho
          rw [dgetE_ok, hop] at ho'
          cases he : PunchCard.entry g with
          | none => rw [he] at ho'; cases ho'
          | some s =>
            rw [he] at ho'
            simp only [PunchCard.ofEntry, Option.some.injEq, RVal.str.injEq] at ho'
            subst ho'
            refine ⟨splitFirst s ',', _, beforeFirst ',' s, stripped_iff.2 rfl, ?_⟩
            change dgetE (dset r _ _) _ = _
            rw [dgetE_ok, dset_get, if_pos rfl]
      · intro x hx hmx
        exact absurd hmx (hnm x hx)

theorem firstOnly : ∀ j < 10, 0 < j → DEFAULT_FIELDNAMES[j]? ≠ some (py "column1") := by decide

theorem fifthOp : ∀ k < 11, (py "operation" ∈ DEFAULT_FIELDNAMES.take k ↔ 5 ≤ k) := by decide

/-- Three fields suffice for a remark; for an ordinary card there must be an operation. -/
example : Usable (py "R  HELLO WORLD") 20 [1, 2, 8] DEFAULT_FIELDNAMES ∧
    ¬ Usable (py "   A  B") 20 [1, 2, 8] DEFAULT_FIELDNAMES := by
  have hd : ∀ (l : Str) x, Marked l 20 [1, 2, 8] DEFAULT_FIELDNAMES x ↔
      PunchCard.ofEntry (PunchCard.entry (slice l 0 1)) = .str [x] := fun l x =>
    marked_iff (cols := [1, 2, 8]) (names := DEFAULT_FIELDNAMES) (i := 0) ⟨by decide, rfl, fun j h1 h2 =>
      firstOnly j (lt_trans h2 (by decide)) h1⟩ ((fieldIs_iff ..).2 rfl) x
  constructor
  · exact ⟨by unfold Named; decide, .inr (.inr (.inl ((hd _ _).2 (by decide))))⟩
  · rintro ⟨_, h | h | h | h⟩
    · revert h; unfold Named; decide
    all_goals
      rw [hd] at h
      revert h
      decide

/-- A layout with the operation first and an instruction of its own. -/
example : ∃ c, Card.init (py "TX,B  R  X") 10 [1, 7, 10] [py "operation", py "column1", py "remarks"]
    none 0 = .ok c ∧ c.item (py "operation") = .ok .none ∧ c.item (py "remarks") = .ok (.str (py "X")) :=
  ⟨_, rfl, rfl, rfl⟩
example : ∃ c, Card.init (py "TX,B  A  X") 10 [1, 7, 10] [py "operation", py "column1", py "instruction"]
    none 0 = .ok c ∧ c.item (py "operation") = .ok (.str (py "TX,B")) ∧
      c.item (py "instruction") = .ok (.str (py "TX")) :=
  ⟨_, rfl, rfl, rfl⟩

/-- The cards of a list of lines, when each line makes a card or not whatever its number. -/
theorem fromLines_good (width : Int) (cols : List Int) (cls : CardClass)
    (hb : ∀ l n c, l.head? ≠ some '#' → cls l width cols none n = .ok c → ∃ b, c.getBody = .ok b)
    (lines : List Str) (i : Nat)
    (hg : ∀ l ∈ lines, l.head? ≠ some '#' → ∀ n, ∃ c, cls l width cols none n = .ok c) :
    ∃ cards bs, Deck.fromLines cls width cols none i lines = .ok cards ∧
      cards.mapM PunchCard.getBody = .ok bs := by
  induction lines generalizing i with
  | nil => exact ⟨[], [], rfl, rfl⟩
  | cons l ls ih =>
    obtain ⟨cards, bs, h1, h2⟩ := ih (i + 1) fun x hx => hg x (by simp [hx])
    rw [Deck.fromLines]
    by_cases hh : l.head? = some '#'
    · rw [if_pos (startsWith_iff.2 hh)]
      exact ⟨cards, bs, h1, h2⟩
    · rw [if_neg (fun e => hh (startsWith_iff.1 e))]
      obtain ⟨c, hc⟩ := hg l (by simp) hh (i + 1)
      obtain ⟨b, hb⟩ := hb l _ c hh hc
      rw [hc, h1]
      exact ⟨c :: cards, b :: bs, rfl, mapM_cons_ok.2 ⟨b, bs, hb, h2, rfl⟩⟩

theorem fromLines_bad (width : Int) (cols : List Int) (cls : CardClass) (e : PyErr)
    (lines : List Str) (i : Nat)
    (hg : ∀ l ∈ lines, l.head? ≠ some '#' → (∀ n, ∃ c, cls l width cols none n = .ok c) ∨
      ∀ n, cls l width cols none n = .error e)
    (hx : ∃ l ∈ lines, l.head? ≠ some '#' ∧ ∀ n, cls l width cols none n = .error e) :
    Deck.fromLines cls width cols none i lines = .error e := by
  induction lines generalizing i with
  | nil => simp at hx
  | cons l ls ih =>
    have hgt := fun x hx => hg x (List.mem_cons_of_mem l hx)
    rw [Deck.fromLines]
    obtain ⟨x, hm, hxh, hxe⟩ := hx
    by_cases hh : l.head? = some '#'
    · rw [if_pos (startsWith_iff.2 hh)]
      refine ih (i + 1) hgt ⟨x, ?_, hxh, hxe⟩
      rcases List.mem_cons.1 hm with rfl | hm
      · exact absurd hh hxh
      · exact hm
    · rw [if_neg (fun e => hh (startsWith_iff.1 e))]
      rcases hg l (by simp) hh with h | h
      · obtain ⟨c, hc⟩ := h (i + 1)
        rw [hc]
        have : x ∈ ls := by
          rcases List.mem_cons.1 hm with rfl | hm
          · rw [hxe] at hc; cases hc
          · exact hm
        rw [py_bind_ok, ih (i + 1) hgt ⟨x, this, hxh, hxe⟩]
        rfl
      · rw [h]; rfl

theorem deck_good (fs : FileSystem) (fuel : Nat) (lines : List Str) (width : Int) (cols : List Int)
    (cls : CardClass)
    (hb : ∀ l n c, l.head? ≠ some '#' → cls l width cols none n = .ok c → ∃ b, c.getBody = .ok b)
    (hg : ∀ l ∈ lines, l.head? ≠ some '#' → ∀ n, ∃ c, cls l width cols none n = .ok c) :
    ∃ d, Deck.init fs fuel (some lines) none width cols cls = .ok d := by
  obtain ⟨cards, bs, h1, h2⟩ := fromLines_good width cols cls hb lines 0 hg
  refine ⟨⟨lines, cards, bs.map (·.fields), bs.map (·.stripped), bs.map (·.record)⟩, ?_⟩
  simp only [Deck.init]
  rw [h1, py_bind_ok, Deck.collect, h2]
  rfl

theorem deck_bad (fs : FileSystem) (fuel : Nat) (lines : List Str) (width : Int) (cols : List Int)
    (cls : CardClass) (e : PyErr)
    (hg : ∀ l ∈ lines, l.head? ≠ some '#' → (∀ n, ∃ c, cls l width cols none n = .ok c) ∨
      ∀ n, cls l width cols none n = .error e)
    (hx : ∃ l ∈ lines, l.head? ≠ some '#' ∧ ∀ n, cls l width cols none n = .error e) :
    Deck.init fs fuel (some lines) none width cols cls = .error e := by
  simp only [Deck.init]
  rw [fromLines_bad width cols cls e lines 0 hg hx]
  rfl

theorem getBody_of_record {c : PunchCard} {r : Dict Str RVal} (h : c.record = .ok r) :
    ∃ b, c.getBody = .ok b := by
  unfold PunchCard.record at h
  cases hb : c.getBody with
  | ok b => exact ⟨b, rfl⟩
  | error e => rw [hb] at h; cases h

theorem argus_body {line : Str} {width : Int} {cols : List Int} {fn : Option Str} {n : Int}
    {c : PunchCard} (h : argusClass line width cols fn n = .ok c) : ∃ b, c.getBody = .ok b := by
  unfold argusClass Card.init at h
  split at h
  · cases h
  · split at h
    · cases h
    · split at h
      · cases h
      · cases h
        exact ⟨_, rfl⟩

/-- Which lines make ARGUS cards under the usual names. -/
theorem usable_default (line : Str) (width : Int) (cols : List Int) (hl : cols.length ≤ 10)
    (h0 : 0 < cols.length) : Usable line width cols DEFAULT_FIELDNAMES ↔ 5 ≤ cols.length ∨
      ∃ x ∈ ['P', 'R', 'L'], ∃ f, FieldIs line width cols 0 f ∧ Stripped f [x] := by
  have hn1 : Named cols DEFAULT_FIELDNAMES (py "column1") := by
    unfold Named
    obtain ⟨k, hk⟩ : ∃ k, cols.length = k + 1 := ⟨cols.length - 1, by omega⟩
    rw [hk]
    unfold DEFAULT_FIELDNAMES
    rw [List.take_succ_cons]
    exact List.mem_cons_self
  have hlast : LastNamed DEFAULT_FIELDNAMES cols.length (py "column1") 0 := by
    refine ⟨h0, rfl, ?_⟩
    exact fun j h1 h2 => firstOnly j (by omega) h1
  have hm : ∀ x, Marked line width cols DEFAULT_FIELDNAMES x ↔
      ∃ f, FieldIs line width cols 0 f ∧ Stripped f [x] := by
    intro x
    constructor
    · rintro ⟨i, f, hi, hf, hs⟩
      obtain rfl := lastNamed_unique hi hlast
      exact ⟨f, hf, hs⟩
    · rintro ⟨f, hf, hs⟩
      exact ⟨0, f, hlast, hf, hs⟩
  have hop : Named cols DEFAULT_FIELDNAMES (py "operation") ↔ 5 ≤ cols.length := by
    exact fifthOp _ (by omega)
  unfold Usable
  rw [hop, hm, hm, hm]
  simp [hn1]

/-- C231: which columns a deck of lines can be laid out in: there are names for ten fields; an ARGUS
deck needs five, unless all its cards are P, R and L cards, which need one. -/
theorem C231_deck_partial (fs : FileSystem) (fuel : Nat) (lines : List Str) (width : Int)
    (cols : List Int) (hne : ∃ l ∈ lines, l.head? ≠ some '#') :
    ((∃ d, Deck.init fs fuel (some lines) none width cols punchClass = .ok d) ↔
      cols.length ≤ 10) ∧
    (10 < cols.length → ∀ cls, cls = punchClass ∨ cls = argusClass →
      Deck.init fs fuel (some lines) none width cols cls = .error .indexError) ∧
    (cols.length ≤ 10 →
      ((∀ l ∈ lines, l.head? ≠ some '#' →
          5 ≤ cols.length ∨ ∃ x ∈ ['P', 'R', 'L'], ∃ f, FieldIs l width cols 0 f ∧ Stripped f [x]) →
        ∃ d, Deck.init fs fuel (some lines) none width cols argusClass = .ok d) ∧
      ((∃ l ∈ lines, l.head? ≠ some '#' ∧ cols.length < 5 ∧
          ∀ x ∈ ['P', 'R', 'L'], ∀ f, FieldIs l width cols 0 f → ¬ Stripped f [x]) →
        Deck.init fs fuel (some lines) none width cols argusClass = .error .keyError)) := by
  have hpb : ∀ l n c, l.head? ≠ some '#' → punchClass l width cols none n = .ok c →
      ∃ b, c.getBody = .ok b := fun l n c hh hc => by
    obtain ⟨_, _, _, r, hr⟩ := C52_other l width cols DEFAULT_FIELDNAMES none n c hh hc
    exact getBody_of_record hr
  obtain ⟨l0, hm0, hh0⟩ := hne
  have hpe : 10 < cols.length → ∀ l : Str, l.head? ≠ some '#' → ∀ n,
      punchClass l width cols none n = .error .indexError := fun hl l hh n =>
    punch_short l width cols DEFAULT_FIELDNAMES none n hh hl
  have hae : 10 < cols.length → ∀ l : Str, l.head? ≠ some '#' → ∀ n,
      argusClass l width cols none n = .error .indexError := fun hl l hh n =>
    (C231_argus_partial l width cols DEFAULT_FIELDNAMES none n).2.1 hh hl
  refine ⟨⟨?_, ?_⟩, ?_, ?_⟩
  · rintro ⟨d, hd⟩
    by_contra hl
    push Not at hl
    rw [deck_bad fs fuel lines width cols punchClass .indexError
      (fun l _ hh => .inr (hpe hl l hh)) ⟨l0, hm0, hh0, hpe hl l0 hh0⟩] at hd
    cases hd
  · intro hl
    exact deck_good fs fuel lines width cols punchClass hpb fun l _ hh n =>
      (C231_made_partial l width cols DEFAULT_FIELDNAMES none n hh).1 hl
  · rintro hl cls (rfl | rfl)
    · exact deck_bad _ _ _ _ _ _ _ (fun l _ hh => .inr (hpe hl l hh)) ⟨l0, hm0, hh0, hpe hl l0 hh0⟩
    · exact deck_bad _ _ _ _ _ _ _ (fun l _ hh => .inr (hae hl l hh)) ⟨l0, hm0, hh0, hae hl l0 hh0⟩
  · intro hl
    have hok : ∀ l : Str, l.head? ≠ some '#' → Usable l width cols DEFAULT_FIELDNAMES → ∀ n,
        ∃ c, argusClass l width cols none n = .ok c := fun l hh hu n => by
      obtain ⟨_, c, _, hc, _⟩ :=
        (C231_argus_partial l width cols DEFAULT_FIELDNAMES none n).2.2.2 hh hl hu
      exact ⟨c, hc⟩
    have hno : ∀ l : Str, l.head? ≠ some '#' → ¬ Usable l width cols DEFAULT_FIELDNAMES → ∀ n,
        argusClass l width cols none n = .error .keyError := fun l hh hu n =>
      (C231_argus_partial l width cols DEFAULT_FIELDNAMES none n).2.2.1 hh hl hu
    have hz : ∀ l : Str, Usable l width cols DEFAULT_FIELDNAMES ↔ 5 ≤ cols.length ∨
        ∃ x ∈ ['P', 'R', 'L'], ∃ f, FieldIs l width cols 0 f ∧ Stripped f [x] := fun l => by
      rcases Nat.eq_zero_or_pos cols.length with h0 | h0
      · have : cols = [] := List.length_eq_zero_iff.1 h0
        subst this
        simp [Usable, Named, FieldIs]
      · exact usable_default l width cols hl h0
    constructor
    · intro hall
      exact deck_good fs fuel lines width cols argusClass (fun l n c _ => argus_body)
        fun l hm hh => hok l hh ((hz l).2 (hall l hm hh))
    · rintro ⟨l, hm, hh, h5, hx⟩
      have hu : ¬ Usable l width cols DEFAULT_FIELDNAMES := by
        rw [hz]
        rintro (h | ⟨x, hxm, f, hf, hs⟩)
        · omega
        · exact hx x hxm f hf hs
      refine deck_bad _ _ _ _ _ _ _ (fun l _ hh => ?_) ⟨l, hm, hh, hno l hh hu⟩
      by_cases h : Usable l width cols DEFAULT_FIELDNAMES
      · exact .inl (hok l hh h)
      · exact .inr (hno l hh h)

/-- Two cards laid out in two fields, one of them no remark. -/
example : (∃ d, Deck.init (fun _ => none) 0 (some [py "R A", py "# c", py "  B"]) none 9 [1, 2]
      punchClass = .ok d) ∧
    Deck.init (fun _ => none) 0 (some [py "R A", py "# c", py "  B"]) none 9 [1, 2] argusClass =
      .error .keyError ∧
    (∃ d, Deck.init (fun _ => none) 0 (some [py "R A", py "# c", py "L B"]) none 9 [1, 2]
      argusClass = .ok d) := ⟨⟨_, rfl⟩, rfl, ⟨_, rfl⟩⟩

end H800
