import Verif.Props.Cards
import Verif.Spec.Punch

/-!
Property C110: a card punched field by field reads back as the same fields.
-/

namespace H800

open Spec

theorem fieldsOf_starts (fs : List Str) (pre rest : Str) :
    PunchCard.fieldsOf (pre ++ fs.flatten ++ rest)
      (PunchCard.layoutOf ((pre.length + fs.flatten.length : Nat) : Int)
        (starts (pre.length + 1) (fs.map List.length))) = fs := by
  induction fs generalizing pre with
  | nil => rfl
  | cons f fs ih =>
    have hslice : ∀ tl : Str, slice (pre ++ (f ++ tl) ++ rest) (((pre.length + 1 : Nat) : Int) - 1)
        (((pre.length + 1 : Nat) : Int) - 1 + (f.length : Int)) = f := by
      intro tl
      rw [slice_nonneg _ (by push_cast; omega) (by push_cast; omega)]
      have e1 : (((pre.length + 1 : Nat) : Int) - 1).toNat = pre.length := by push_cast; omega
      have e2 : (((pre.length + 1 : Nat) : Int) - 1 + (f.length : Int)).toNat - pre.length =
        f.length := by push_cast; omega
      rw [e1, e2, List.append_assoc, List.drop_left, List.append_assoc, List.take_left]
    cases fs with
    | nil =>
      have e : ((pre.length + (f ++ ([] : Str)).length : Nat) : Int) - ((pre.length + 1 : Nat) : Int)
          + 1 = (f.length : Int) := by
        rw [List.append_nil]; push_cast; ring
      simp only [List.map_cons, List.map_nil, starts, PunchCard.layoutOf, PunchCard.fieldsOf,
        List.flatten_cons, List.flatten_nil, e, hslice]
    | cons g fs =>
      have h := ih (pre ++ f)
      have e0 : pre ++ (f :: g :: fs).flatten ++ rest = pre ++ f ++ (g :: fs).flatten ++ rest := by
        simp
      have e1 : pre.length + (f :: g :: fs).flatten.length =
          (pre ++ f).length + (g :: fs).flatten.length := by simp; omega
      have e2 : pre.length + 1 + f.length = (pre ++ f).length + 1 := by simp; omega
      rw [List.map_cons, starts, e2, e1]
      have e3 : starts ((pre ++ f).length + 1) ((g :: fs).map List.length) =
          ((((pre ++ f).length + 1 : Nat)) : Int) ::
            starts ((pre ++ f).length + 1 + g.length) (fs.map List.length) := rfl
      rw [e3, PunchCard.layoutOf, ← e3]
      have e4 : ((((pre ++ f).length + 1 : Nat)) : Int) - ((pre.length + 1 : Nat) : Int) =
          (f.length : Int) := by
        rw [List.length_append]; push_cast; ring
      rw [e4]
      unfold PunchCard.fieldsOf at h ⊢
      rw [List.map_cons, e0, h]
      congr 1
      have := hslice (g :: fs).flatten
      rw [← List.append_assoc] at this
      exact this

/-- C110: whatever is punched into consecutive fields filling a card from column 1 is what the card
has as its fields; anything beyond the last column is ignored. -/
theorem C110_fields (fs : List Str) (rest : Str) (names : List Str) (fn : Option Str) (n : Int)
    (hh : (fs.flatten ++ rest).head? ≠ some '#') (hl : fs.length ≤ names.length)
    (hnd : names.Nodup) (hln : py "linenum" ∉ names) :
    ∃ c, PunchCard.init (fs.flatten ++ rest) fs.flatten.length (starts 1 (fs.map List.length)) names
      fn n = .ok c ∧ c.fields = .ok fs := by
  have hlen : ∀ (ws : List Nat) (k : Nat), (starts k ws).length = ws.length := by
    intro ws
    induction ws with
    | nil => exact fun _ => rfl
    | cons w ws ih => intro k; rw [starts, List.length_cons, ih, List.length_cons]
  obtain ⟨c, fs', st, r, h1, h2, -⟩ := C50_record (fs.flatten ++ rest) fs.flatten.length
    (starts 1 (fs.map List.length)) names fn n hh (by rw [hlen, List.length_map]; exact hl) hnd hln
  refine ⟨c, h1, ?_⟩
  have hs : startsWith (fs.flatten ++ rest) '#' = false := by
    rw [Bool.eq_false_iff]; exact fun e => hh (startsWith_iff.1 e)
  unfold PunchCard.init at h1
  rw [hs] at h1
  simp only [Bool.false_eq_true, if_false] at h1
  split at h1
  · cases h1
  · cases h1
    have := fieldsOf_starts fs [] rest
    simp only [List.nil_append, List.length_nil, Nat.zero_add] at this
    show Except.ok _ = _
    rw [this]

/-- Trimmed text in a field shows as itself. -/
theorem entry_justified {w : Nat} {s : Str} (h : Trimmed s) :
    PunchCard.entry (justified w s) = shown s := by
  have hb : Blank (List.replicate (w - s.length) ' ') := by
    intro c hc
    rw [List.eq_of_mem_replicate hc]; decide
  have hst : strip (justified w s) = s := by
    unfold justified
    rw [strip_append_blank hb]
    exact stripped_iff.1 ⟨h, [], [], blank_nil, blank_nil, by simp⟩
  unfold PunchCard.entry shown
  rw [hst]

/-- C110: entries that fit their fields, punched left-justified, are the stripped fields and the
record of the card, for every list of field widths. -/
theorem C110_entries (rows : List (Nat × Str)) (rest : Str) (names : List Str) (fn : Option Str)
    (n : Int) (hfit : ∀ p ∈ rows, p.2.length ≤ p.1 ∧ Trimmed p.2)
    (hh : (rows.flatMap (fun p => justified p.1 p.2) ++ rest).head? ≠ some '#')
    (hl : rows.length ≤ names.length) (hnd : names.Nodup) (hln : py "linenum" ∉ names) :
    ∃ c r, PunchCard.init (rows.flatMap (fun p => justified p.1 p.2) ++ rest)
        ((rows.map (·.1)).sum : Nat) (starts 1 (rows.map (·.1))) names fn n = .ok c ∧
      c.strippedFields = .ok (rows.map fun p => shown p.2) ∧ c.record = .ok r ∧
      ∀ i (hi : i < rows.length) (hn : i < names.length), dget r names[i] =
        some (match shown rows[i].2 with | none => .none | some t => .str t) := by
  have hwid : ∀ p ∈ rows, (justified p.1 p.2).length = p.1 := by
    intro p hp
    unfold justified
    rw [List.length_append, List.length_replicate]
    have := (hfit p hp).1
    omega
  have hfm : rows.flatMap (fun p => justified p.1 p.2) =
      (rows.map (fun p => justified p.1 p.2)).flatten := by rw [List.flatMap_def]
  have hws : (rows.map (fun p => justified p.1 p.2)).map List.length = rows.map (·.1) := by
    rw [List.map_map]
    exact List.map_congr_left hwid
  have htot : (rows.map (fun p => justified p.1 p.2)).flatten.length = (rows.map (·.1)).sum := by
    rw [List.length_flatten, hws]
  rw [hfm] at hh ⊢
  obtain ⟨c, hc, hf⟩ := C110_fields (rows.map (fun p => justified p.1 p.2)) rest names fn n hh
    (by rw [List.length_map]; exact hl) hnd hln
  rw [hws, htot] at hc
  have hlen : ∀ (ws : List Nat) (k : Nat), (starts k ws).length = ws.length := by
    intro ws
    induction ws with
    | nil => exact fun _ => rfl
    | cons w ws ih => intro k; rw [starts, List.length_cons, ih, List.length_cons]
  obtain ⟨c', fs', st, r, h1, h2, h3, h4, h5, -, h6, -⟩ := C50_record
    ((rows.map (fun p => justified p.1 p.2)).flatten ++ rest) ((rows.map (·.1)).sum : Nat)
    (starts 1 (rows.map (·.1))) names fn n hh (by rw [hlen, List.length_map]; exact hl) hnd hln
  rw [hc] at h1
  cases h1
  rw [hf] at h2
  cases h2
  have hst : st = rows.map fun p => shown p.2 := by
    have gen : ∀ (rows : List (Nat × Str)) (st : List (Option Str)),
        (∀ p ∈ rows, Trimmed p.2) →
        List.Forall₂ IsEntry (rows.map (fun p => justified p.1 p.2)) st →
        st = rows.map fun p => shown p.2 := by
      intro rows
      induction rows with
      | nil => intro st _ h; cases h; rfl
      | cons p rows ih =>
        intro st ht h
        cases h with
        | cons g1 g2 =>
          rw [List.map_cons, ← ih _ (fun q hq => ht q (List.mem_cons_of_mem _ hq)) g2]
          congr 1
          rw [← entry_justified (w := p.1) (ht p List.mem_cons_self)]
          rename_i v _
          cases v with
          | none => exact (entry_none.2 g1).symm
          | some t => exact (entry_some.2 ⟨stripped_iff.1 g1.2, g1.1⟩).symm
    exact gen rows st (fun p hp => (hfit p hp).2) h5
  subst hst
  refine ⟨c, r, hc, h3, h4, ?_⟩
  intro i hi hn
  have := h6 i (by rw [List.length_map]; exact hi) hn
  rw [this]
  simp only [List.getElem_map]
  cases shown rows[i].2 <;> rfl

/-- Two fields, the second one empty, and text beyond the card. -/
example : (∀ p ∈ [(4, py "ABC"), (2, py "")], p.2.length ≤ p.1 ∧ Trimmed p.2) ∧
    [(4, py "ABC"), (2, py "")].flatMap (fun p => justified p.1 p.2) ++ py "XX" = py "ABC   XX" ∧
    (py "ABC   XX").head? ≠ some '#' := by
  refine ⟨?_, by decide, by decide⟩
  intro p hp
  simp only [List.mem_cons, List.not_mem_nil, or_false] at hp
  rcases hp with rfl | rfl
  · exact ⟨by decide, fun c hc => by cases hc; decide, fun c hc => by cases hc; decide⟩
  · refine ⟨by decide, ?_, ?_⟩ <;> (intro c hc; cases hc)

/-- C110: an ARGUS card punched with ten entries that fit, the first none of `#`, `P`, `R`, `L`, reads
back as these entries. -/
theorem C110_argus (c1 lognum c8 label operation operand1 operand2 operand3 sequence remarks : Str)
    (rest : Str) (fn : Option Str) (n : Int)
    (hfit : ∀ p ∈ argusWidths.zip [c1, lognum, c8, label, operation, operand1, operand2, operand3,
      sequence, remarks], p.2.length ≤ p.1 ∧ Trimmed p.2)
    (h1 : ∀ x ∈ c1.head?, x ≠ '#' ∧ x ≠ 'P' ∧ x ≠ 'R' ∧ x ≠ 'L') :
    ∃ c, argusClass ((argusWidths.zip [c1, lognum, c8, label, operation, operand1, operand2,
        operand3, sequence, remarks]).flatMap (fun p => justified p.1 p.2) ++ rest) DEFAULT_WIDTH
        DEFAULT_FIELDS fn n = .ok c ∧
      let rv := fun s : Str => (.ok (if s = [] then .none else .str s) : Py RVal)
      Card.column1 c = rv c1 ∧ Card.lognum c = rv lognum ∧ Card.column8 c = rv c8 ∧
      Card.label c = rv label ∧ Card.operation c = rv operation ∧ Card.operand1 c = rv operand1 ∧
      Card.operand2 c = rv operand2 ∧ Card.operand3 c = rv operand3 ∧
      Card.sequence c = rv sequence ∧ Card.remarks c = rv remarks := by
  have hjw : ∀ p ∈ argusWidths.zip [c1, lognum, c8, label, operation, operand1, operand2, operand3,
      sequence, remarks], (justified p.1 p.2).length = p.1 := by
    intro p hp
    unfold justified
    rw [List.length_append, List.length_replicate]
    have := (hfit p hp).1
    omega
  set rows := argusWidths.zip [c1, lognum, c8, label, operation, operand1, operand2, operand3,
      sequence, remarks] with hrows
  set line := rows.flatMap (fun p => justified p.1 p.2) ++ rest with hline
  have hws : (rows.map (fun p => justified p.1 p.2)).map List.length = argusWidths := by
    rw [List.map_map]
    refine (List.map_congr_left hjw).trans ?_
    rfl
  have hdf : defaultFields line = rows.map (fun p => justified p.1 p.2) := by
    have := fieldsOf_starts (rows.map (fun p => justified p.1 p.2)) [] rest
    rw [List.length_flatten, hws] at this
    simp only [List.nil_append, List.length_nil, Nat.zero_add] at this
    rw [← fieldsOf_default]
    refine Eq.trans ?_ this
    rw [hline, List.flatMap_def]
    rfl
  have hhead : line.head? = (justified 1 c1).head? := by
    have : justified 1 c1 ≠ [] := by
      intro e
      have := hjw (1, c1) (by rw [hrows]; simp [argusWidths])
      rw [e] at this
      cases this
    rw [hline, hrows]
    simp only [argusWidths, List.zip_cons_cons, List.flatMap_cons, List.append_assoc]
    cases hj : justified 1 c1 with
    | nil => exact absurd hj this
    | cons x t => rfl
  have hx : ∀ x, x ≠ ' ' → line.head? = some x → c1.head? = some x := by
    intro x hne e
    rw [hhead] at e
    cases hc : c1 with
    | nil =>
      rw [hc] at e
      cases e
      exact absurd rfl hne
    | cons y t => rw [hc] at e; exact e
  have hn1 : line.head? ≠ some '#' := fun e => (h1 _ (hx _ (by decide) e)).1 rfl
  have hprl : ¬ PRL line := by
    rintro (e | e | e)
    · exact (h1 _ (hx _ (by decide) e)).2.1 rfl
    · exact (h1 _ (hx _ (by decide) e)).2.2.1 rfl
    · exact (h1 _ (hx _ (by decide) e)).2.2.2 rfl
  obtain ⟨i1, i2, i3, -, i4⟩ := argus_items line n
  obtain ⟨i4, i5, i6, i7, i8, i9, i10, -⟩ := i4 hprl
  have hv : ∀ (w : Nat) (s col : Str), Trimmed s → col = justified w s →
      val col = if s = [] then .none else .str s := by
    intro w s col ht e
    unfold val
    rw [e, entry_justified ht]
    unfold shown
    split <;> rfl
  unfold defaultFields at hdf
  rw [hrows] at hdf
  simp only [argusWidths, List.zip_cons_cons, List.zip_nil_right, List.map_cons, List.map_nil,
    List.cons.injEq, and_true] at hdf
  have htr : ∀ p ∈ rows, Trimmed p.2 := fun p hp => (hfit p hp).2
  rw [hrows] at htr
  simp only [argusWidths, List.zip_cons_cons, List.zip_nil_right, List.mem_cons, List.not_mem_nil,
    or_false, forall_eq_or_imp, forall_eq] at htr
  obtain ⟨d1, d2, d3, d4, d5, d6, d7, d8, d9, d10⟩ := hdf
  obtain ⟨t1, t2, t3, t4, t5, t6, t7, t8, t9, t10⟩ := htr
  clear_value line rows
  refine ⟨_, argus_eq line hn1 fn n, ?_⟩
  intro rv
  refine ⟨?_, ?_, ?_, ?_, ?_, ?_, ?_, ?_, ?_, ?_⟩
  · show dgetE (argusRecord line n) (py "column1") = _
    rw [i1, hv _ _ _ t1 d1]
  · show dgetE (argusRecord line n) (py "lognum") = _
    rw [i2, hv _ _ _ t2 d2]
  · show dgetE (argusRecord line n) (py "column8") = _
    rw [i3, hv _ _ _ t3 d3]
  · show dgetE (argusRecord line n) (py "label") = _
    rw [i4, hv _ _ _ t4 d4]
  · show dgetE (argusRecord line n) (py "operation") = _
    rw [i5, hv _ _ _ t5 d5]
  · show dgetE (argusRecord line n) (py "operand1") = _
    rw [i6, hv _ _ _ t6 d6]
  · show dgetE (argusRecord line n) (py "operand2") = _
    rw [i7, hv _ _ _ t7 d7]
  · show dgetE (argusRecord line n) (py "operand3") = _
    rw [i8, hv _ _ _ t8 d8]
  · show dgetE (argusRecord line n) (py "misc") = _
    rw [i9, hv _ _ _ t9 d9]
  · show dgetE (argusRecord line n) (py "remarks") = _
    rw [i10, hv _ _ _ t10 d10]

/-- An ordinary card. -/
example : (match argusClass ((argusWidths.zip [py "", py "0030", py "", py "A999999", py "ALF,1",
    py "X", py "", py "Y", py "", py "NOTE"]).flatMap (fun p => justified p.1 p.2)) DEFAULT_WIDTH
    DEFAULT_FIELDS none 7 with
    | .ok c => decide (Card.label c = .ok (.str (py "A999999"))) &&
      decide (Card.operand2 c = .ok .none)
    | .error _ => false) = true := by decide +kernel

end H800
