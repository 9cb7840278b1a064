import Verif.Lemmas.Cards

/-!
Properties C49-C55 and C87: punch cards and ARGUS cards.
-/

namespace H800

open Spec

/-- C49: the fields of any non-decreasing layout starting at column 1 or later and ending within the
card, joined together, are the columns from the first one to the width. -/
theorem C49_tiling (line : Str) (width first : Int) (rest : List Int) (names : List Str)
    (fn : Option Str) (n : Int) (c : PunchCard) (fs : List Str)
    (h1 : 1 ≤ first) (hs : (first :: rest).Pairwise (· ≤ ·))
    (hw : ∀ x ∈ first :: rest, x ≤ width + 1)
    (hc : PunchCard.init line width (first :: rest) names fn n = .ok c) (hf : c.fields = .ok fs) :
    fs.flatten = columns line first.toNat (width + 1).toNat ∧
      fs.length = (first :: rest).length := by
  have hfs : fs = PunchCard.fieldsOf line (PunchCard.layoutOf width (first :: rest)) := by
    unfold PunchCard.init at hc
    split at hc
    · cases hc; cases hf
    · simp only at hc
      split at hc
      · cases hc
      · cases hc; cases hf; rfl
  subst hfs
  clear hc hf
  induction rest generalizing first with
  | nil =>
    have := hw first List.mem_cons_self
    simp only [PunchCard.layoutOf, PunchCard.fieldsOf, List.map_cons, List.map_nil,
      List.flatten_cons, List.flatten_nil, List.append_nil, List.length_cons, List.length_nil,
      and_true]
    rw [slice_columns line h1 (by omega)]
    congr 2; omega
  | cons d rest ih =>
    have hd : first ≤ d := (List.pairwise_cons.1 hs).1 d List.mem_cons_self
    have hdw := hw d (List.mem_cons_of_mem _ List.mem_cons_self)
    obtain ⟨i1, i2⟩ := ih d (by omega) (List.pairwise_cons.1 hs).2
      (fun x hx => hw x (List.mem_cons_of_mem _ hx))
    unfold PunchCard.fieldsOf at i1 i2 ⊢
    rw [PunchCard.layoutOf, List.map_cons, List.flatten_cons, i1, List.length_cons, i2]
    refine ⟨?_, rfl⟩
    simp only
    rw [slice_columns line h1 (by omega)]
    have e : first + (d - first) = d := by omega
    rw [e]
    exact columns_append line (by omega) (by omega) (by omega)

/-- C49: with the default layout the fields are the first 120 characters, for every line that is
not a comment. -/
theorem C49_default (line : Str) (h : line.head? ≠ some '#') (fn : Option Str) (n : Int) :
    ∃ c fs, punchClass line DEFAULT_WIDTH DEFAULT_FIELDS fn n = .ok c ∧ c.fields = .ok fs ∧
      fs.flatten = line.take 120 := by
  refine ⟨_, _, punch_eq line h fn n, rfl, ?_⟩
  have := (C49_tiling line DEFAULT_WIDTH 1 [2, 8, 9, 20, 33, 47, 61, 76, 81] DEFAULT_FIELDNAMES fn n
    _ _ (by decide) (by decide) (by decide) (punch_eq line h fn n) rfl).1
  rw [this]
  rfl

/-- A short line under a layout with an empty field. -/
example : ∃ c, PunchCard.init (py "ABCDE") 4 [1, 3, 3] [py "a", py "b", py "c"] none 0 = .ok c ∧
    c.fields = .ok [py "AB", [], py "CD"] := ⟨_, rfl, rfl⟩

/-- C50: the entries of the record and the stripped fields, for any layout and any distinct names
other than `linenum`, at least as many as fields. -/
theorem C50_record (line : Str) (width : Int) (cols : List Int) (names : List Str)
    (fn : Option Str) (n : Int) (h : line.head? ≠ some '#') (hlen : cols.length ≤ names.length)
    (hnd : names.Nodup) (hln : py "linenum" ∉ names) :
    ∃ c fs st r, PunchCard.init line width cols names fn n = .ok c ∧ c.fields = .ok fs ∧
      c.strippedFields = .ok st ∧ c.record = .ok r ∧
      List.Forall₂ IsEntry fs st ∧ fs.length = cols.length ∧
      (∀ i (hi : i < st.length) (hn : i < names.length),
        dget r names[i] = some (match st[i] with | none => .none | some t => .str t)) ∧
      (∀ k, (dget r k).isSome → k = py "linenum" ∨ k ∈ names.take cols.length) ∧
      dget r (py "linenum") = if n = 0 then none else some (.int n) := by
  have hlay : (PunchCard.layoutOf width cols).length = cols.length := by
    clear hlen
    induction cols with
    | nil => rfl
    | cons a t ih =>
      cases t with
      | nil => rfl
      | cons b t => rw [PunchCard.layoutOf, List.length_cons, ih]; rfl
  have hs : startsWith line '#' = false := by
    rw [Bool.eq_false_iff]; intro e; exact h (startsWith_iff.1 e)
  generalize hF : PunchCard.fieldsOf line (PunchCard.layoutOf width cols) = F
  have hFl : F.length = cols.length := by
    rw [← hF]; unfold PunchCard.fieldsOf; rw [List.length_map, hlay]
  have hkeys : ∀ m ∈ names, m ∉ (numEntry n).map (·.1) := by
    intro m hm
    unfold numEntry
    split
    · intro e
      simp only [List.map_cons, List.map_nil, List.mem_singleton] at e
      exact hln (e ▸ hm)
    · simp
  have hfill := fill_eq F names (numEntry n) (by omega) hnd hkeys
  generalize hz : List.zipWith (fun n f => (n, PunchCard.ofEntry (PunchCard.entry f))) names F = Z
    at hfill
  have hZk : Z.map (·.1) = names.take cols.length := by
    rw [← hz, List.map_zipWith]
    simp only
    rw [← hFl]
    clear hfill hz hkeys hFl hF hnd hln hlen
    induction names generalizing F with
    | nil => simp
    | cons a t ih =>
      cases F with
      | nil => simp
      | cons b F => simp [ih]
  have hk : (numEntry n ++ Z).map (·.1) = (numEntry n).map (·.1) ++ names.take cols.length := by
    rw [List.map_append, hZk]
  have hnodup : ((numEntry n ++ Z).map (·.1)).Nodup := by
    rw [hk, List.nodup_append']
    refine ⟨?_, (hnd.sublist (List.take_sublist _ _)), ?_⟩
    · unfold numEntry; split <;> simp
    · intro m hm hm'
      exact hkeys m (List.mem_of_mem_take hm') hm
  refine ⟨⟨remove line '\n', PunchCard.layoutOf width cols, fn, n, false,
    some ⟨F, F.map PunchCard.entry, numEntry n ++ Z⟩⟩, F, F.map PunchCard.entry, numEntry n ++ Z,
    ?_, rfl, rfl, rfl, ?_, hFl, ?_, ?_, ?_⟩
  · unfold PunchCard.init
    rw [hs]
    simp only [Bool.false_eq_true, if_false, hF]
    unfold numEntry at hfill
    rw [hfill]
    rfl
  · rw [List.forall₂_map_right_iff, List.forall₂_same]
    exact fun f _ => isEntry_entry f
  · intro i hi hn
    rw [List.length_map] at hi
    apply dget_of_mem hnodup
    apply List.mem_append_right
    rw [← hz, List.mem_iff_getElem]
    refine ⟨i, by rw [List.length_zipWith]; omega, ?_⟩
    rw [List.getElem_zipWith, List.getElem_map]
    cases PunchCard.entry F[i] <;> rfl
  · intro k hk'
    rw [dget_isSome, hk, List.mem_append] at hk'
    refine hk'.imp (fun e => ?_) id
    unfold numEntry at e
    split at e
    · simpa using e
    · cases e
  · by_cases hn : n = 0
    · rw [if_pos hn, dget_none, hk, List.mem_append, not_or]
      refine ⟨?_, fun e => hln (List.mem_of_mem_take e)⟩
      unfold numEntry; simp [hn]
    · rw [if_neg hn]
      apply dget_of_mem hnodup
      apply List.mem_append_left
      unfold numEntry; simp [hn]

/-- A non-comment line with a blank and a non-blank field. -/
example : ∃ c, PunchCard.init (py "A  B ") 5 [1, 2, 4] [py "a", py "b", py "c"] none 7 = .ok c ∧
    c.strippedFields = .ok [some (py "A"), none, some (py "B")] ∧
    c.record = .ok [(py "linenum", .int 7), (py "a", .str (py "A")), (py "b", .none),
      (py "c", .str (py "B"))] := ⟨_, rfl, rfl, rfl⟩

/-- C51: lines that agree on the first 120 columns give the same record, for both card classes and
unless column 1 is P, R or L. -/
theorem C51_beyond_width (line line' : Str) (fn fn' : Option Str) (n : Int)
    (h : line.take 120 = line'.take 120) (hp : ¬ PRL line) :
    (do (← argusClass line DEFAULT_WIDTH DEFAULT_FIELDS fn n).record) =
      (do (← argusClass line' DEFAULT_WIDTH DEFAULT_FIELDS fn' n).record) ∧
    (do (← punchClass line DEFAULT_WIDTH DEFAULT_FIELDS fn n).record) =
      (do (← punchClass line' DEFAULT_WIDTH DEFAULT_FIELDS fn' n).record) := by
  have hh : line.head? = line'.head? := by
    have := congrArg List.head? h
    simpa [List.head?_take] using this
  have hcol : ∀ a b, 1 ≤ a → b ≤ 121 → columns line a b = columns line' a b := by
    intro a b ha hb
    have e : ∀ s : Str, columns s a b = columns (s.take 120) a b := by
      intro s
      unfold columns
      rw [List.drop_take, List.take_take]
      congr 1
      omega
    rw [e, h, ← e]
  by_cases hc : line.head? = some '#'
  · have hs : startsWith line '#' = true := startsWith_iff.2 hc
    have hs' : startsWith line' '#' = true := startsWith_iff.2 (hh ▸ hc)
    constructor
    · unfold argusClass Card.init PunchCard.init
      rw [hs, hs']; rfl
    · unfold punchClass PunchCard.init
      rw [hs, hs']; rfl
  · have hc' : line'.head? ≠ some '#' := by rw [← hh]; exact hc
    have hr : punchRecord line n = punchRecord line' n := by
      unfold punchRecord
      simp only [hcol _ _ (show 1 ≤ 1 by omega) (show 2 ≤ 121 by omega),
        hcol _ _ (show 1 ≤ 2 by omega) (show 8 ≤ 121 by omega),
        hcol _ _ (show 1 ≤ 8 by omega) (show 9 ≤ 121 by omega),
        hcol _ _ (show 1 ≤ 9 by omega) (show 20 ≤ 121 by omega),
        hcol _ _ (show 1 ≤ 20 by omega) (show 33 ≤ 121 by omega),
        hcol _ _ (show 1 ≤ 33 by omega) (show 47 ≤ 121 by omega),
        hcol _ _ (show 1 ≤ 47 by omega) (show 61 ≤ 121 by omega),
        hcol _ _ (show 1 ≤ 61 by omega) (show 76 ≤ 121 by omega),
        hcol _ _ (show 1 ≤ 76 by omega) (show 81 ≤ 121 by omega),
        hcol _ _ (show 1 ≤ 81 by omega) (show 121 ≤ 121 by omega)]
    rw [argus_eq line hc, argus_eq line' hc', punch_eq line hc, punch_eq line' hc']
    constructor
    · show Except.ok _ = Except.ok _
      congr 1
      unfold argusRecord
      have hp' : ¬ PRL line' := by unfold PRL at hp ⊢; rw [← hh]; exact hp
      rw [if_neg (fun e => hp ((isPRL_iff line).1 e)), if_neg (fun e => hp' ((isPRL_iff line').1 e)),
        hr, hcol 20 33 (by omega) (by omega)]
    · show Except.ok _ = Except.ok _
      rw [hr]

/-- Lines that differ only after column 120. -/
example : (List.replicate 120 'A' ++ py "XY").take 120 = (List.replicate 120 'A' ++ py "Z").take 120 ∧
    ¬ PRL (List.replicate 120 'A' ++ py "XY") := by
  refine ⟨by decide, ?_⟩
  unfold PRL; decide

/-- C52: a line starting with `#` gives a comment card: its comment is the line without newlines and
it has no fields, stripped fields or record. -/
theorem C52_comment (line : Str) (width : Int) (cols : List Int) (names : List Str)
    (fn : Option Str) (n : Int) (h : line.head? = some '#') :
    ∃ c, PunchCard.init line width cols names fn n = .ok c ∧ c.isComment = true ∧
      c.comment = some (line.filter (· ≠ '\n')) ∧ c.fields = .error .attributeError ∧
      c.strippedFields = .error .attributeError ∧ c.record = .error .attributeError := by
  have hs : startsWith line '#' = true := startsWith_iff.2 h
  unfold PunchCard.init
  rw [hs]
  exact ⟨_, rfl, rfl, rfl, rfl, rfl, rfl⟩

/-- C52: any other line gives a card that is not a comment and has fields and a record. -/
theorem C52_other (line : Str) (width : Int) (cols : List Int) (names : List Str)
    (fn : Option Str) (n : Int) (c : PunchCard) (h : line.head? ≠ some '#')
    (hc : PunchCard.init line width cols names fn n = .ok c) :
    c.isComment = false ∧ c.comment = none ∧ (∃ fs, c.fields = .ok fs) ∧
      (∃ r, c.record = .ok r) := by
  have hs : startsWith line '#' = false := by
    rw [Bool.eq_false_iff]; intro e; exact h (startsWith_iff.1 e)
  unfold PunchCard.init at hc
  rw [hs] at hc
  simp only [Bool.false_eq_true, if_false] at hc
  split at hc
  · cases hc
  · cases hc
    exact ⟨rfl, rfl, ⟨_, rfl⟩, ⟨_, rfl⟩⟩

/-- C52: the ARGUS card class cannot be used on a comment line at all. -/
theorem C52_argus (line : Str) (width : Int) (cols : List Int) (names : List Str)
    (fn : Option Str) (n : Int) (h : line.head? = some '#') :
    Card.init line width cols names fn n = .error .attributeError := by
  have hs : startsWith line '#' = true := startsWith_iff.2 h
  unfold Card.init PunchCard.init
  rw [hs]
  rfl

/-- A comment line and a line that is not one. -/
example : (py "# Page 110\n").head? = some '#' ∧ (py " # x").head? ≠ some '#' := by decide

/-- C53: the instruction of a card is None exactly when its operation is; otherwise it is the
stripped text of the operation before its first comma, and contains no comma. -/
theorem C53_instruction (line : Str) (fn : Option Str) (n : Int) (c : PunchCard)
    (hc : argusClass line DEFAULT_WIDTH DEFAULT_FIELDS fn n = .ok c) :
    (Card.operation c = .ok .none ∧ Card.instruction c = .ok .none) ∨
    ∃ op p ins, Card.operation c = .ok (.str op) ∧ Card.instruction c = .ok (.str ins) ∧
      BeforeFirst ',' op p ∧ Stripped p ins ∧ ',' ∉ ins := by
  by_cases h : line.head? = some '#'
  · rw [show argusClass line DEFAULT_WIDTH DEFAULT_FIELDS fn n = .error .attributeError from
      C52_argus line _ _ _ fn n h] at hc
    cases hc
  · rw [argus_eq line h] at hc
    cases hc
    obtain ⟨-, -, -, hp, ho⟩ := argus_items line n
    by_cases hprl : PRL line
    · obtain ⟨-, h1, -, -, -, -, h2, -⟩ := hp hprl
      exact Or.inl ⟨h1, h2⟩
    · obtain ⟨-, h1, -, -, -, -, -, h2⟩ := ho hprl
      cases he : PunchCard.entry (columns line 20 33) with
      | none =>
        left
        rw [he] at h2
        unfold val at h1
        rw [he] at h1
        exact ⟨h1, h2⟩
      | some op =>
        right
        rw [he] at h2
        unfold val at h1
        rw [he] at h1
        refine ⟨op, _, _, h1, h2, beforeFirst ',' op, strip_stripped _, ?_⟩
        intro hmem
        obtain ⟨-, a, b, -, -, e⟩ := strip_stripped (splitFirst op ',')
        apply (beforeFirst ',' op).1
        rw [e]
        simp [hmem]

/-- An operation with an address list. -/
example : ∃ c, argusClass (List.replicate 19 ' ' ++ py "SWS, D8T12") DEFAULT_WIDTH DEFAULT_FIELDS
    none 0 = .ok c ∧ Card.operation c = .ok (.str (py "SWS, D8T12")) ∧
    Card.instruction c = .ok (.str (py "SWS")) := ⟨_, rfl, by rfl, by rfl⟩

/-- C54: a card with P, R or L in column 1 has no label, operation, instruction, operands or
sequence, and keeps the log number of columns 2-7 and column 8. -/
theorem C54_no_code (line : Str) (fn : Option Str) (n : Int) (h : PRL line) :
    ∃ c, argusClass line DEFAULT_WIDTH DEFAULT_FIELDS fn n = .ok c ∧
      Card.label c = .ok .none ∧ Card.operation c = .ok .none ∧ Card.instruction c = .ok .none ∧
      Card.operand1 c = .ok .none ∧ Card.operand2 c = .ok .none ∧ Card.operand3 c = .ok .none ∧
      Card.sequence c = .ok .none ∧
      (∃ v, IsEntry (columns line 2 8) v ∧
        Card.lognum c = .ok (match v with | none => .none | some t => .str t)) ∧
      (∃ v, IsEntry (columns line 8 9) v ∧
        Card.column8 c = .ok (match v with | none => .none | some t => .str t)) := by
  have hh : line.head? ≠ some '#' := by
    rcases h with h | h | h <;> rw [h] <;> decide
  obtain ⟨-, h2, h3, hp, -⟩ := argus_items line n
  obtain ⟨p1, p2, p3, p4, p5, p6, p7, -⟩ := hp h
  refine ⟨_, argus_eq line hh fn n, p1, p2, p7, p3, p4, p5, p6, ⟨_, isEntry_entry _, ?_⟩,
    ⟨_, isEntry_entry _, ?_⟩⟩
  · refine Eq.trans h2 ?_
    unfold val; cases PunchCard.entry (columns line 2 8) <;> rfl
  · refine Eq.trans h3 ?_
    unfold val; cases PunchCard.entry (columns line 8 9) <;> rfl

/-- A page card. -/
example : PRL (py "P0068   ONE-WORD ALPHABETIC CONSTANTS CONCLUDED.") := Or.inl rfl

/-- C55: the remarks of a P, R or L card are its whole text from column 9, stripped. -/
def C55_statement : Prop :=
  ∀ (line : Str) (fn : Option Str) (n : Int) (c : PunchCard), PRL line →
    argusClass line DEFAULT_WIDTH DEFAULT_FIELDS fn n = .ok c →
    ∃ t, Stripped ((line.filter (· ≠ '\n')).drop 8) t ∧ Card.remarks c = .ok (.str t)

/-- C55 fails: the first letter of the text is lost. -/
theorem C55_refuted : ¬ C55_statement := by
  intro h
  obtain ⟨t, h1, h2⟩ := h (py "P0068   ONE-WORD") none 0 _ (Or.inl rfl)
    (argus_eq _ (by decide) none 0)
  have e : strip ((py "P0068   ONE-WORD").filter (· ≠ '\n') |>.drop 8) = py "ONE-WORD" := by decide
  rw [stripped_iff] at h1
  rw [e] at h1
  have h3 := ((argus_items (py "P0068   ONE-WORD") 0).2.2.2.1 (Or.inl rfl)).2.2.2.2.2.2.2
  have h4 := h2.symm.trans h3
  rw [← h1] at h4
  revert h4
  decide

/-- C55, the part that holds: the remarks are the text from column 10 on, stripped; so nothing is
lost exactly when column 9 is blank. -/
theorem C55_from_column_10_partial (line : Str) (fn : Option Str) (n : Int) (c : PunchCard)
    (h : PRL line) (hc : argusClass line DEFAULT_WIDTH DEFAULT_FIELDS fn n = .ok c) :
    (∃ t, Stripped ((line.filter (· ≠ '\n')).drop 9) t ∧ Card.remarks c = .ok (.str t)) ∧
    ((∃ t, Stripped ((line.filter (· ≠ '\n')).drop 8) t ∧ Card.remarks c = .ok (.str t)) ↔
      ∀ x, (line.filter (· ≠ '\n'))[8]? = some x → isSpace x = true) := by
  have hh : line.head? ≠ some '#' := by
    rcases h with h | h | h <;> rw [h] <;> decide
  rw [argus_eq line hh] at hc
  cases hc
  have hr := ((argus_items line n).2.2.2.1 h).2.2.2.2.2.2.2
  have hr' : Card.remarks ⟨remove line '\n', PunchCard.layoutOf DEFAULT_WIDTH DEFAULT_FIELDS, fn, n,
      false, some ⟨defaultFields line, (defaultFields line).map PunchCard.entry,
        argusRecord line n⟩⟩ = .ok (.str (strip ((line.filter (· ≠ '\n')).drop 9))) := hr
  rw [hr']
  generalize line.filter (· ≠ '\n') = s
  refine ⟨⟨_, strip_stripped _, rfl⟩, ?_⟩
  simp only [stripped_iff, Except.ok.injEq, RVal.str.injEq]
  by_cases hl : 8 < s.length
  · rw [List.drop_eq_getElem_cons hl, List.getElem?_eq_getElem hl]
    generalize s.drop (8 + 1) = u
    generalize s[8] = x
    constructor
    · rintro ⟨t, h1, h2⟩ y hy
      cases hy
      by_contra hx
      have e1 := strip_countP (x :: u)
      rw [h1.trans h2.symm, strip_countP u, List.countP_cons_of_pos (by simpa using hx)] at e1
      omega
    · intro hx
      have hb : Blank [x] := by intro c hc; simp at hc; rw [hc]; exact hx x rfl
      refine ⟨_, ?_, rfl⟩
      obtain ⟨ht, a, b, ha, hb', e⟩ := strip_stripped u
      refine stripped_iff.1 ⟨ht, [x] ++ a, b, blank_append.2 ⟨hb, ha⟩, hb', ?_⟩
      conv_lhs => rw [e]
      simp
  · rw [List.drop_of_length_le (by omega), List.drop_of_length_le (by omega),
      List.getElem?_eq_none (by omega)]
    simp

/-- C87: a newline at the end of the line changes neither the text, nor the stripped fields, nor the
record of a card: cards read from a file and from a list of lines agree. -/
theorem C87_newline (line : Str) (h : '\n' ∉ line) (hc : line.head? ≠ some '#') (fn fn' : Option Str)
    (n : Int) :
    (∃ c c', argusClass line DEFAULT_WIDTH DEFAULT_FIELDS fn n = .ok c ∧
      argusClass (line ++ ['\n']) DEFAULT_WIDTH DEFAULT_FIELDS fn' n = .ok c' ∧
      c'.line = line ∧ c.line = line ∧ c'.record = c.record ∧
      c'.strippedFields = c.strippedFields) ∧
    (∃ c c', punchClass line DEFAULT_WIDTH DEFAULT_FIELDS fn n = .ok c ∧
      punchClass (line ++ ['\n']) DEFAULT_WIDTH DEFAULT_FIELDS fn' n = .ok c' ∧
      c'.line = line ∧ c.line = line ∧ c'.record = c.record ∧
      c'.strippedFields = c.strippedFields) := by
  have hc' : (line ++ ['\n']).head? ≠ some '#' := by
    cases line with
    | nil => decide
    | cons x t => exact hc
  have hr : remove line '\n' = line := by
    unfold remove
    rw [List.filter_eq_self]
    intro c hcm
    simp only [decide_eq_true_eq]
    rintro rfl; exact h hcm
  have hr' : remove (line ++ ['\n']) '\n' = line := by
    unfold remove at hr ⊢
    rw [List.filter_append, hr]
    simp
  have hst : (defaultFields (line ++ ['\n'])).map PunchCard.entry =
      (defaultFields line).map PunchCard.entry := by
    unfold defaultFields
    simp only [List.map_cons, List.map_nil, entry_newline]
  have hpr : punchRecord (line ++ ['\n']) n = punchRecord line n := by
    unfold punchRecord val
    simp only [entry_newline]
  have har : argusRecord (line ++ ['\n']) n = argusRecord line n := by
    unfold argusRecord
    rw [hpr, hr', hr]
    unfold val
    simp only [entry_newline]
  constructor
  · refine ⟨_, _, argus_eq line hc fn n, argus_eq _ hc' fn' n, hr', hr, ?_, ?_⟩
    · show Except.ok _ = Except.ok _
      rw [har]
    · show Except.ok _ = Except.ok _
      rw [hst]
  · refine ⟨_, _, punch_eq line hc fn n, punch_eq _ hc' fn' n, hr', hr, ?_, ?_⟩
    · show Except.ok _ = Except.ok _
      rw [hpr]
    · show Except.ok _ = Except.ok _
      rw [hst]

/-- A line as it comes from a list and from a file. -/
example : '\n' ∉ py " 0030   A999999    ALF" ∧ (py " 0030   A999999    ALF").head? ≠ some '#' := by
  decide

end H800
