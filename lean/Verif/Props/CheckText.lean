import Verif.Model.CheckText
import Verif.Props.DetailsBack
import Verif.Props.SymText
import Verif.Props.Options
import Verif.Props.Percent
import Verif.Props.Trace

/-!
The numbers of the report of check-instructions can be read off its text (C160).
-/

namespace H800

open Spec

/-! ### Lines at the end of a text -/

theorem printed_append (a b : List Str) : printed (a ++ b) = printed a ++ printed b :=
  List.flatMap_append

/-- A text of whole lines. -/
def Whole (t : Str) : Prop := t = [] ∨ ∃ u, t = u ++ ['\n']

theorem whole_printed (ls : List Str) : Whole (printed ls) := by
  induction ls using List.reverseRecOn with
  | nil => exact .inl rfl
  | append_singleton ls l _ =>
    refine .inr ⟨printed ls ++ l, ?_⟩
    rw [printed_append]
    simp [printed]

theorem last_line_inj {x y l m : Str} (hx : Whole x) (hy : Whole y) (hl : '\n' ∉ l) (hm : '\n' ∉ m)
    (e : x ++ l = y ++ m) : x = y ∧ l = m := by
  have key : ∀ {x l : Str}, Whole x → '\n' ∉ l → (x ++ l).reverse.takeWhile (· ≠ '\n') = l.reverse := by
    intro x l hx hl
    rw [List.reverse_append]
    have h1 : ∀ c ∈ l.reverse, decide (c ≠ '\n') = true := by
      intro c hc
      simp only [decide_eq_true_eq]
      rintro rfl
      exact hl (List.mem_reverse.1 hc)
    rcases hx with rfl | ⟨u, rfl⟩
    · rw [List.reverse_nil, List.append_nil, takeWhile_all h1]
    · rw [List.reverse_append, List.takeWhile_append_of_pos h1]
      simp
  have e1 : l.reverse = m.reverse := by rw [← key hx hl, ← key hy hm, e]
  have e2 : l = m := List.reverse_injective e1
  subst e2
  exact ⟨List.append_cancel_right e, rfl⟩

/-- Equal texts have the same lines at their ends. -/
theorem tail_lines_inj {x y : Str} (hx : Whole x) (hy : Whole y) {ls ms : List Str}
    (hl : ∀ l ∈ ls, '\n' ∉ l) (hm : ∀ l ∈ ms, '\n' ∉ l) (hn : ls.length = ms.length)
    (e : x ++ printed ls = y ++ printed ms) : x = y ∧ ls = ms := by
  induction ls using List.reverseRecOn generalizing ms with
  | nil =>
    cases ms with
    | nil => exact ⟨by simpa [printed] using e, rfl⟩
    | cons m ms => cases hn
  | append_singleton ls l ih =>
    obtain ⟨ms, m, rfl⟩ : ∃ ms' m, ms = ms' ++ [m] := by
      rcases List.eq_nil_or_concat ms with rfl | ⟨ms', m, rfl⟩
      · simp at hn
      · exact ⟨ms', m, by simp⟩
    rw [printed_append, printed_append] at e
    have e' : (x ++ printed ls) ++ l = (y ++ printed ms) ++ m := by
      apply List.append_cancel_right (bs := ['\n'])
      simpa [printed] using e
    have wh : ∀ {x : Str}, Whole x → ∀ ls, Whole (x ++ printed ls) := by
      intro x hx ls
      rcases whole_printed ls with h | ⟨u, h⟩
      · rw [h, List.append_nil]; exact hx
      · exact .inr ⟨x ++ u, by rw [h, List.append_assoc]⟩
    obtain ⟨e1, rfl⟩ := last_line_inj (wh hx ls) (wh hy ms) (hl l (by simp)) (hm m (by simp)) e'
    obtain ⟨e2, rfl⟩ := ih (fun l h => hl l (by simp [h])) (fun l h => hm l (by simp [h]))
      (by simpa using hn) e1
    exact ⟨e2, rfl⟩

/-! ### The numbers in the lines -/

theorem pyStr_nat_inj {m n : Nat} (h : pyStr (m : Int) = pyStr (n : Int)) : m = n := by
  rw [pyStr_nat, pyStr_nat] at h
  exact numeral_inj h

theorem errors_text_inj {m n : Nat} (h : (CheckMsg.errors m).text = (CheckMsg.errors n).text) :
    m = n := by
  simp only [CheckMsg.text, List.cons.injEq, and_true] at h
  have one : py "1 error encountered." = py "1" ++ ' ' :: py "error encountered." := rfl
  have many : ∀ k : Nat, pyStr k ++ py " errors encountered." =
      numeral 10 k ++ ' ' :: py "errors encountered." := by
    intro k
    rw [pyStr_nat]
  by_cases h1 : m = 1 <;> by_cases h2 : n = 1
  · rw [h1, h2]
  · rw [if_pos h1, if_neg h2, one, many] at h
    exact absurd (until_blank (by decide) (numeral_blank_free _).1 h).2 (by decide)
  · rw [if_neg h1, if_pos h2, one, many] at h
    exact absurd (until_blank (numeral_blank_free _).1 (by decide) h).2 (by decide)
  · rw [if_neg h1, if_neg h2, many, many] at h
    exact numeral_inj (until_blank (numeral_blank_free _).1 (numeral_blank_free _).1 h).1

theorem instructions_plain : ∀ i ∈ INSTRUCTIONS, ' ' ∉ i ∧ '\n' ∉ i ∧ i ≠ [] ∧ '%' ∉ i := by
  decide +kernel

theorem count_column {w w' n n' : Nat} {i i' a b R R' : Str} (ha : LeftIn w i a) (hb : LeftIn w i' b)
    (hi : ' ' ∉ i) (hi' : ' ' ∉ i')
    (e : a ++ ' ' :: padLeft ' ' w' (numeral 10 n) ++ ' ' :: R =
      b ++ ' ' :: padLeft ' ' w' (numeral 10 n') ++ ' ' :: R') : i = i' ∧ n = n' := by
  rw [List.append_assoc, List.append_assoc, List.cons_append, List.cons_append] at e
  obtain ⟨k, hk, -⟩ := padLeft_rightIn w' (numeral 10 n)
  obtain ⟨k', hk', -⟩ := padLeft_rightIn w' (numeral 10 n')
  rw [hk, hk'] at e
  have ne : ∀ n, numeral 10 n ≠ [] := fun n => (numeral_decimal n).1
  obtain ⟨p, rfl, -⟩ := ha
  obtain ⟨p', rfl, -⟩ := hb
  have step : ∀ (p : Nat) (i T : Str), i ++ List.replicate p ' ' ++ ' ' :: T =
      i ++ ' ' :: (List.replicate p ' ' ++ T) := by
    intro p i T
    rw [List.append_assoc]
    congr 1
    induction p with
    | zero => rfl
    | succ p ih => rw [List.replicate_succ, List.cons_append, ih]; rfl
  rw [step, step] at e
  obtain ⟨e1, e2⟩ := until_blank hi hi' e
  refine ⟨e1, ?_⟩
  rw [← List.append_assoc, ← List.append_assoc, ← List.append_assoc, ← List.append_assoc,
    List.replicate_append_replicate, List.replicate_append_replicate] at e2
  have e3 := lead_blank (numeral_blank_free _).1 (numeral_blank_free _).1 (ne _) (ne _) e2
  exact numeral_inj (until_blank (numeral_blank_free _).1 (numeral_blank_free _).1 e3).1

theorem freqText_inj {i i' : Str} {n n' t t' : Nat} (hi : ' ' ∉ i) (hi' : ' ' ∉ i')
    (e : freqText i n t = freqText i' n' t') : i = i' ∧ n = n' := by
  unfold freqText at e
  refine count_column (w := 8) (w' := 6) (padRight_leftIn 8 i) (padRight_leftIn 8 i') hi hi'
    (R := ' ' :: padLeft ' ' 6 (fixed2 (hundredths (percentage n t))) ++ ['%'])
    (R' := ' ' :: padLeft ' ' 6 (fixed2 (hundredths (percentage n' t'))) ++ ['%']) ?_
  simpa using e

theorem totalText_inj {n n' : Nat} (e : totalText n = totalText n') : n = n' := by
  unfold totalText at e
  refine (count_column (w := 8) (w' := 6) (padRight_leftIn 8 (py "Total"))
    (padRight_leftIn 8 (py "Total")) (by decide) (by decide)
    (R := ' ' :: padLeft ' ' 6 (fixed2 (hundredths 100)) ++ ['%'])
    (R' := ' ' :: padLeft ' ' 6 (fixed2 (hundredths 100)) ++ ['%']) ?_).2
  simpa using e

/-! ### The report -/

/-- The report at the end of a run. -/
def reportMsgs (opts : CheckOpts) (st : CheckState) : List CheckMsg :=
  (if opts.count then .lines st.linecount :: .total st.instrcount ::
      ((if opts.sort then freqtab st.instrtab else byName st.instrtab).filter
        fun p => !opts.unused || decide (p.2 ≠ 0)).map fun p => .freq p.1 p.2 st.instrcount
    else []) ++ checkTail opts st

theorem freqLinesRun_shape {opts : CheckOpts} {n : Nat} {d : Dict Str Nat} {l : List CheckMsg}
    (h : freqLinesRun opts n d = (l, .ok ())) :
    l = (d.filter fun p => !opts.unused || decide (p.2 ≠ 0)).map fun p => .freq p.1 p.2 n := by
  induction d generalizing l with
  | nil => cases h; rfl
  | cons p d ih =>
    obtain ⟨i, k⟩ := p
    rw [freqLinesRun] at h
    by_cases hs : ((opts.unused && decide (k ≠ 0)) || !opts.unused) = true
    · rw [if_pos hs] at h
      have hs' : (!opts.unused || decide (k ≠ 0)) = true := by
        revert hs; cases opts.unused <;> simp
      by_cases h0 : n = 0
      · rw [if_pos h0] at h; cases h
      · rw [if_neg h0] at h
        rw [List.filter_cons_of_pos (by exact hs'), List.map_cons]
        generalize hr : freqLinesRun opts n d = r at h
        obtain ⟨l', r⟩ := r
        simp only [Prod.mk.injEq] at h
        obtain ⟨rfl, rfl⟩ := h
        rw [← ih hr]
    · rw [if_neg hs] at h
      have hs' : ¬ (!opts.unused || decide (k ≠ 0)) = true := by
        revert hs; cases opts.unused <;> simp
      rw [List.filter_cons_of_neg (by exact hs')]
      exact ih h

theorem checkV_shape {v : Bool} {fs : FileSystem} {fuel : Nat} {opts : CheckOpts} {args : List Str}
    {out : List (VMsg CheckMsg)} (h : checkInstructionsV v fs fuel opts args = (out, .ok ())) :
    ∃ st head, checkFiles fs fuel opts args CheckState.init = .ok st ∧
      Adds v head st.out ∧ out = head ++ (reportMsgs opts st).map .msg := by
  unfold checkInstructionsV at h
  split at h
  · cases h
  · have h0 : CheckRel v CheckStateV.init CheckState.init := ⟨rfl, rfl, rfl, rfl, adds_nil⟩
    obtain ⟨⟨h1, h2, h3, h4, h5⟩, h6⟩ := checkFilesV_rel v fs fuel opts args h0
    generalize checkFilesV v fs fuel opts args CheckStateV.init = p at *
    generalize hq : checkFilesRun fs fuel opts args CheckState.init = q at *
    obtain ⟨s, p⟩ := p
    obtain ⟨t, q⟩ := q
    simp only at h1 h2 h3 h4 h5 h6
    subst h6
    cases p with
    | error e => cases h
    | ok u =>
      cases u
      refine ⟨t, s.out, checkFilesRun_ok.1 hq, h5, ?_⟩
      simp only at h
      have ht : ∀ o, checkTail opts ⟨s.errcount, s.linecount, s.instrcount, s.instrtab, o⟩ =
          checkTail opts t := by
        intro o
        unfold checkTail
        rw [h1, h4]
      rw [ht, h2, h3, h4] at h
      unfold reportMsgs
      by_cases hc : opts.count = true
      · rw [if_pos hc] at h
        rw [if_pos hc]
        generalize hr : freqLinesRun opts t.instrcount _ = r at h
        obtain ⟨l, r⟩ := r
        cases r with
        | error e => cases h
        | ok u =>
          cases u
          simp only [Prod.mk.injEq, and_true] at h
          rw [← h, ← freqLinesRun_shape hr]
      · rw [if_neg hc] at h
        rw [if_neg hc, List.nil_append]
        simp only [Prod.mk.injEq, and_true] at h
        exact h.symm

theorem until_elem {α : Type} {c : α} {m m' T T' : List α} (h : c ∉ m) (h' : c ∉ m')
    (e : m ++ c :: T = m' ++ c :: T') : m = m' ∧ T = T' := by
  induction m generalizing m' with
  | nil =>
    cases m' with
    | nil => exact ⟨rfl, by simpa using e⟩
    | cons d m' =>
      rw [List.nil_append, List.cons_append, List.cons.injEq] at e
      exact absurd (e.1 ▸ List.mem_cons_self) h'
  | cons d m ih =>
    cases m' with
    | nil =>
      rw [List.nil_append, List.cons_append, List.cons.injEq] at e
      exact absurd (e.1 ▸ List.mem_cons_self) h
    | cons d' m' =>
      rw [List.cons_append, List.cons_append, List.cons.injEq] at e
      obtain ⟨e1, e2⟩ := ih (fun x => h (List.mem_cons_of_mem _ x))
        (fun x => h' (List.mem_cons_of_mem _ x)) e.2
      rw [e.1, e1, e2]
      exact ⟨rfl, rfl⟩

theorem mem_padRight {w : Nat} {s : Str} {x : Char} (h : x ∈ padRight w s) : x = ' ' ∨ x ∈ s := by
  unfold padRight at h
  rcases List.mem_append.1 h with h | h
  · exact .inr h
  · exact .inl (List.eq_of_mem_replicate h)

theorem mem_padLeft {c : Char} {w : Nat} {s : Str} {x : Char} (h : x ∈ padLeft c w s) :
    x = c ∨ x ∈ s := by
  unfold padLeft at h
  rcases List.mem_append.1 h with h | h
  · exact .inl (List.eq_of_mem_replicate h)
  · exact .inr h

theorem fixed2_newline (h : ℤ) : '\n' ∉ fixed2 h := by
  unfold fixed2
  intro hm
  rcases List.mem_append.1 hm with hm | hm
  · exact numeral_newline _ hm
  · rcases List.mem_cons.1 hm with hm | hm
    · cases hm
    · rcases mem_padLeft hm with hm | hm
      · cases hm
      · exact numeral_newline _ hm

theorem threeColumns_newline {i x : Str} {n : Nat} (hi : '\n' ∉ i) (hx : '\n' ∉ x) :
    '\n' ∉ padRight 8 i ++ ' ' :: padLeft ' ' 6 (numeral 10 n) ++ ' ' :: ' ' :: padLeft ' ' 6 x ++
      ['%'] := by
  intro hm
  simp only [List.append_assoc, List.cons_append, List.mem_append, List.mem_cons,
    List.not_mem_nil, or_false] at hm
  rcases hm with hm | hm | hm | hm | hm | hm | hm
  · rcases mem_padRight hm with hm | hm
    · cases hm
    · exact hi hm
  · cases hm
  · rcases mem_padLeft hm with hm | hm
    · cases hm
    · exact numeral_newline _ hm
  · cases hm
  · cases hm
  · rcases mem_padLeft hm with hm | hm
    · cases hm
    · exact hx hm
  · cases hm

theorem freqText_newline {i : Str} (n t : Nat) (hi : '\n' ∉ i) : '\n' ∉ freqText i n t :=
  threeColumns_newline hi (fixed2_newline _)

theorem totalText_newline (n : Nat) : '\n' ∉ totalText n :=
  threeColumns_newline (by decide) (fixed2_newline _)

theorem freqText_percent (i : Str) (n t : Nat) : '%' ∈ freqText i n t := by
  unfold freqText
  simp

theorem freqText_ne (i : Str) (n t : Nat) : [] ≠ freqText i n t := by
  intro h
  have := freqText_percent i n t
  rw [← h] at this
  cases this

/-- The lines of the report. -/
def reportLines (opts : CheckOpts) (st : CheckState) : List Str :=
  (reportMsgs opts st).flatMap CheckMsg.text

/-- The instructions of the frequency report with their numbers. -/
def shownFreqs (opts : CheckOpts) (st : CheckState) : List (Str × Nat) :=
  (if opts.sort then freqtab st.instrtab else byName st.instrtab).filter
    fun p => !opts.unused || decide (p.2 ≠ 0)

/-- The instructions that are not used. -/
def unusedNames (st : CheckState) : List Str :=
  ((byName st.instrtab).filter fun p => p.2 = 0).map (·.1)

/-- The line with the number of errors. -/
def errorsLine (n : Nat) : Str :=
  if n = 1 then py "1 error encountered." else pyStr n ++ py " errors encountered."

theorem flatMap_one {α β : Type} (f : α → β) (l : List α) : (l.flatMap fun x => [f x]) = l.map f := by
  induction l with
  | nil => rfl
  | cons a l ih => rw [List.flatMap_cons, ih]; rfl

theorem checkTail_lines (opts : CheckOpts) (st : CheckState) :
    (checkTail opts st).flatMap CheckMsg.text =
      (if opts.unused then [] :: py "Unused Instructions:" :: unusedNames st else []) ++
        [errorsLine st.errcount] := by
  unfold checkTail unusedNames
  rw [List.flatMap_append]
  congr 1
  cases opts.unused
  · rfl
  · simp only [if_true, List.flatMap_cons, List.flatMap_map, CheckMsg.text, flatMap_one]
    rfl

theorem reportLines_count {opts : CheckOpts} (hc : opts.count = true) (st : CheckState) :
    reportLines opts st = [] :: (py "Source lines: " ++ pyStr st.linecount) :: [] ::
      py "Instruction Frequencies:" :: totalText st.instrcount ::
      ((shownFreqs opts st).map (fun p => freqText p.1 p.2 st.instrcount) ++
      ((if opts.unused then [] :: py "Unused Instructions:" :: unusedNames st else []) ++
        [errorsLine st.errcount])) := by
  unfold reportLines reportMsgs
  rw [List.flatMap_append, checkTail_lines, if_pos hc]
  simp only [List.flatMap_cons, List.flatMap_map, CheckMsg.text, flatMap_one, shownFreqs,
    List.cons_append, List.nil_append]

section
variable {opts opts' : CheckOpts} {st st' : CheckState}

theorem shown_perm (hk : st.instrtab.map (·.1) = INSTRUCTIONS) (opts : CheckOpts) :
    (shownFreqs opts st).Perm (st.instrtab.filter fun p => !opts.unused || decide (p.2 ≠ 0)) := by
  have hnd : (st.instrtab.map (·.1)).Nodup := hk ▸ instructions_nodup
  unfold shownFreqs
  split
  · exact (freqtab_perm _).filter _
  · exact (byName_perm hnd).filter _

theorem shown_name (hk : st.instrtab.map (·.1) = INSTRUCTIONS) {p : Str × Nat}
    (h : p ∈ shownFreqs opts st) : p.1 ∈ INSTRUCTIONS := by
  have := (List.mem_filter.1 ((shown_perm hk opts).mem_iff.1 h)).1
  rw [← hk]
  exact List.mem_map_of_mem this

theorem unused_name (hk : st.instrtab.map (·.1) = INSTRUCTIONS) {i : Str}
    (h : i ∈ unusedNames st) : i ∈ INSTRUCTIONS := by
  have hnd : (st.instrtab.map (·.1)).Nodup := hk ▸ instructions_nodup
  obtain ⟨p, hp, rfl⟩ := List.mem_map.1 h
  have := (byName_perm hnd).mem_iff.1 (List.mem_filter.1 hp).1
  rw [← hk]
  exact List.mem_map_of_mem this

/-- Together the instructions shown and those not used are all, unless none are left out. -/
theorem shown_length (hk : st.instrtab.map (·.1) = INSTRUCTIONS) :
    (shownFreqs opts st).length + (if opts.unused then (unusedNames st).length else 0) =
      INSTRUCTIONS.length := by
  have hnd : (st.instrtab.map (·.1)).Nodup := hk ▸ instructions_nodup
  have hl : st.instrtab.length = INSTRUCTIONS.length := by rw [← hk, List.length_map]
  rw [(shown_perm hk opts).length_eq]
  cases hu : opts.unused
  · rw [← hl]
    simp
  · have h2 : (unusedNames st).length = (st.instrtab.filter fun p => p.2 = 0).length := by
      unfold unusedNames
      rw [List.length_map, ((byName_perm hnd).filter _).length_eq]
    rw [if_pos rfl, h2, ← hl]
    clear h2 hl hnd hk
    induction st.instrtab with
    | nil => rfl
    | cons p l ih =>
      by_cases h0 : p.2 = 0
      · rw [List.filter_cons_of_neg (by simp [h0]), List.filter_cons_of_pos (by simp [h0])]
        simp only [List.length_cons]
        omega
      · rw [List.filter_cons_of_pos (by simp [h0]), List.filter_cons_of_neg (by simp [h0])]
        simp only [List.length_cons]
        omega

theorem errorsLine_newline (n : Nat) : '\n' ∉ errorsLine n := by
  unfold errorsLine
  split
  · decide
  · intro h
    rcases List.mem_append.1 h with h | h
    · exact pyStr_newline _ h
    · revert h; decide

theorem reportLines_newline (hc : opts.count = true)
    (hk : st.instrtab.map (·.1) = INSTRUCTIONS) : ∀ l ∈ reportLines opts st, '\n' ∉ l := by
  rw [reportLines_count hc]
  intro l hl
  simp only [List.mem_cons, List.mem_append, List.mem_map, List.not_mem_nil, or_false] at hl
  rcases hl with rfl | rfl | rfl | rfl | rfl | ⟨p, hp, rfl⟩ | hl | rfl
  · decide
  · intro h
    rcases List.mem_append.1 h with h | h
    · revert h; decide
    · exact pyStr_newline _ h
  · decide
  · decide
  · exact totalText_newline _
  · exact freqText_newline _ _ (instructions_plain _ (shown_name hk hp)).2.1
  · split at hl
    · rcases List.mem_cons.1 hl with rfl | hl
      · decide
      · rcases List.mem_cons.1 hl with rfl | hl
        · decide
        · exact (instructions_plain _ (unused_name hk hl)).2.1
    · cases hl
  · exact errorsLine_newline _

/-- The line before the last one tells whether the instructions not used were listed. -/
theorem before_last (hc : opts.count = true) (hk : st.instrtab.map (·.1) = INSTRUCTIONS) :
    ∃ x y, reportLines opts st = x ++ [y, errorsLine st.errcount] ∧
      (opts.unused = true ↔ '%' ∉ y) := by
  rw [reportLines_count hc]
  cases hu : opts.unused
  · have hl := shown_length (opts := opts) hk
    rw [hu] at hl
    rcases List.eq_nil_or_concat (shownFreqs opts st) with h0 | ⟨l, p, h0⟩
    · rw [h0] at hl
      exact absurd hl.symm (by rw [if_neg (by decide)]; decide)
    · rw [h0]
      refine ⟨[] :: (py "Source lines: " ++ pyStr st.linecount) :: [] ::
        py "Instruction Frequencies:" :: totalText st.instrcount ::
        l.map (fun p => freqText p.1 p.2 st.instrcount), freqText p.1 p.2 st.instrcount, ?_, ?_⟩
      · simp
      · simp [freqText_percent]
  · rcases List.eq_nil_or_concat (unusedNames st) with h0 | ⟨l, i, h0⟩
    · rw [h0]
      refine ⟨[] :: (py "Source lines: " ++ pyStr st.linecount) :: [] ::
        py "Instruction Frequencies:" :: totalText st.instrcount ::
        ((shownFreqs opts st).map (fun p => freqText p.1 p.2 st.instrcount) ++ [[]]),
        py "Unused Instructions:", ?_, ?_⟩
      · simp
      · simp only [true_iff]; decide
    · refine ⟨[] :: (py "Source lines: " ++ pyStr st.linecount) :: [] ::
        py "Instruction Frequencies:" :: totalText st.instrcount ::
        ((shownFreqs opts st).map (fun p => freqText p.1 p.2 st.instrcount) ++ [] ::
          py "Unused Instructions:" :: l), i, ?_, ?_⟩
      · rw [h0]; simp
      · simp only [true_iff]
        exact (instructions_plain _ (unused_name hk (by rw [h0]; simp))).2.2.2

/-- All numbers of a report can be read off its text. -/
theorem report_read (hc : opts.count = true) (hc' : opts'.count = true)
    (hk : st.instrtab.map (·.1) = INSTRUCTIONS) (hk' : st'.instrtab.map (·.1) = INSTRUCTIONS)
    {x x' : Str} (hx : Whole x) (hx' : Whole x')
    (e : x ++ printed (reportLines opts st) = x' ++ printed (reportLines opts' st')) :
    x = x' ∧ opts.unused = opts'.unused ∧ st.linecount = st'.linecount ∧
      st.instrcount = st'.instrcount ∧ st.errcount = st'.errcount ∧
      ∀ i ∈ INSTRUCTIONS, dget st.instrtab i = dget st'.instrtab i := by
  have hnl := reportLines_newline (opts := opts) hc hk
  have hnl' := reportLines_newline (opts := opts') hc' hk'
  have hu : opts.unused = opts'.unused := by
    obtain ⟨a, b, h1, h2⟩ := before_last (opts := opts) hc hk
    obtain ⟨a', b', h1', h2'⟩ := before_last (opts := opts') hc' hk'
    rw [h1] at hnl e
    rw [h1'] at hnl' e
    rw [printed_append, printed_append, ← List.append_assoc, ← List.append_assoc] at e
    have wh : ∀ {x : Str}, Whole x → ∀ ls, Whole (x ++ printed ls) := by
      intro x hx ls
      rcases whole_printed ls with h | ⟨u, h⟩
      · rw [h, List.append_nil]; exact hx
      · exact .inr ⟨x ++ u, by rw [h, List.append_assoc]⟩
    obtain ⟨-, e2⟩ := tail_lines_inj (wh hx a) (wh hx' a')
      (fun l hl => hnl l (List.mem_append_right _ hl))
      (fun l hl => hnl' l (List.mem_append_right _ hl)) rfl e
    rw [List.cons.injEq] at e2
    rw [Bool.eq_iff_iff, h2, h2', e2.1]
  have hlen : (reportLines opts st).length = (reportLines opts' st').length := by
    rw [reportLines_count hc, reportLines_count hc']
    have h1 := shown_length (opts := opts) hk
    have h2 := shown_length (opts := opts') hk'
    rw [← hu] at h2 ⊢
    simp only [List.length_cons, List.length_append, List.length_map]
    cases hv : opts.unused <;> rw [hv] at h1 h2 <;> simp at h1 h2 ⊢ <;> omega
  obtain ⟨ex, el⟩ := tail_lines_inj hx hx' hnl hnl' hlen e
  rw [reportLines_count hc, reportLines_count hc', ← hu] at el
  simp only [List.cons.injEq, true_and] at el
  obtain ⟨el1, el2, el3⟩ := el
  have hline := pyStr_nat_inj (List.append_cancel_left el1)
  have htot := totalText_inj el2
  rw [← htot] at el3
  have key : (shownFreqs opts st).map (fun p => freqText p.1 p.2 st.instrcount) =
        (shownFreqs opts' st').map (fun p => freqText p.1 p.2 st.instrcount) ∧
      errorsLine st.errcount = errorsLine st'.errcount := by
    cases hv : opts.unused
    · rw [hv] at el3
      simp only [Bool.false_eq_true, if_false, List.nil_append] at el3
      obtain ⟨h1, h2⟩ := List.append_inj' el3 rfl
      exact ⟨h1, by simpa using h2⟩
    · rw [hv] at el3
      simp only [if_true, List.cons_append] at el3
      have nf : ∀ l : List (Str × Nat),
          ([] : Str) ∉ l.map (fun p => freqText p.1 p.2 st.instrcount) := by
        intro l h
        obtain ⟨p, -, hp⟩ := List.mem_map.1 h
        exact freqText_ne _ _ _ hp.symm
      obtain ⟨h1, h2⟩ := until_elem (nf _) (nf _) el3
      rw [List.cons.injEq] at h2
      exact ⟨h1, by simpa using (List.append_inj' h2.2 rfl).2⟩
  have herr : st.errcount = st'.errcount := errors_text_inj (by
    show [errorsLine _] = [errorsLine _]
    rw [key.2])
  have hshown : shownFreqs opts st = shownFreqs opts' st' := by
    refine map_inj_on (P := fun p => ' ' ∉ p.1) ?_ ?_ ?_ key.1
    · rintro ⟨i, n⟩ ⟨j, m⟩ h1 h2 he
      obtain ⟨rfl, rfl⟩ := freqText_inj h1 h2 he
      rfl
    · exact fun p hp => (instructions_plain _ (shown_name hk hp)).1
    · exact fun p hp => (instructions_plain _ (shown_name hk' hp)).1
  refine ⟨ex, hu, hline, htot, herr, fun i hi => ?_⟩
  have hnd : (st.instrtab.map (·.1)).Nodup := hk ▸ instructions_nodup
  have hnd' : (st'.instrtab.map (·.1)).Nodup := hk' ▸ instructions_nodup
  have hiff : ∀ n, (!opts.unused || decide (n ≠ 0)) = true →
      (dget st.instrtab i = some n ↔ dget st'.instrtab i = some n) := by
    intro n hn
    have h1 : (i, n) ∈ shownFreqs opts st ↔ dget st.instrtab i = some n := by
      rw [(shown_perm hk opts).mem_iff, List.mem_filter, dget_iff_mem hnd]
      exact ⟨fun h => h.1, fun h => ⟨h, hn⟩⟩
    have h2 : (i, n) ∈ shownFreqs opts' st' ↔ dget st'.instrtab i = some n := by
      rw [(shown_perm hk' opts').mem_iff, List.mem_filter, dget_iff_mem hnd', ← hu]
      exact ⟨fun h => h.1, fun h => ⟨h, hn⟩⟩
    rw [← h1, ← h2, hshown]
  obtain ⟨n, hn⟩ := Option.isSome_iff_exists.1 (dget_isSome.2 (hk ▸ hi) : (dget st.instrtab i).isSome)
  obtain ⟨m, hm⟩ := Option.isSome_iff_exists.1
    (dget_isSome.2 (hk' ▸ hi) : (dget st'.instrtab i).isSome)
  by_cases hn0 : (!opts.unused || decide (n ≠ 0)) = true
  · rw [hn, (hiff n hn0).1 hn]
  · by_cases hm0 : (!opts.unused || decide (m ≠ 0)) = true
    · rw [hm, (hiff m hm0).2 hm]
    · simp only [Bool.or_eq_true, decide_eq_true_eq, not_or, not_not] at hn0 hm0
      rw [hn, hm, hn0.2, hm0.2]

end

/-! ### C160 -/

open scoped Classical

/-- What a run on the command line means, if the command line asks for no help. -/
theorem checkCmd_run {fs : FileSystem} {fuel : Nat} {argv args : List Str} {os : List Opt}
    {out : List (VMsg CheckMsg)} (hm : Means CHECK_INSTRUCTIONS_OPTS argv os args)
    (h : checkInstructionsCmd fs fuel argv = (out, .ok ())) :
    checkInstructionsV (decide (Given os (py "verbose"))) fs fuel
      ⟨decide (Given os (py "all")), decide (Given os (py "count")),
       decide (Given os (py "invalid")), decide (Given os (py "printOpcodes")),
       decide (Given os (py "sort")), decide (Given os (py "unused"))⟩ args = (out, .ok ()) := by
  unfold checkInstructionsCmd at h
  rcases means_values C153_good.1 hm with ⟨-, e⟩ | ⟨-, v, e, hv⟩
  · rw [e] at h; cases h
  · rw [e] at h
    simp only at h
    rw [hv (py "verbose") (by decide), hv (py "all") (by decide), hv (py "count") (by decide),
      hv (py "invalid") (by decide), hv (py "printOpcodes") (by decide),
      hv (py "sort") (by decide), hv (py "unused") (by decide)] at h
    exact h

theorem checkStdout_split (head : List (VMsg CheckMsg)) (l : List CheckMsg) :
    checkStdout (head ++ l.map .msg) = checkStdout head ++ printed (l.flatMap CheckMsg.text) := by
  unfold checkStdout
  rw [List.flatMap_append, printed_append, List.flatMap_map]
  rfl

/-- C160: if two runs of check-instructions with `--count` print the same text, whatever else they
print before, then the files have the same number of lines, of lines with an instruction, of lines in
error and, for every instruction, of lines that have it; and `--unused` was given for both or
neither. -/
theorem C160_check (fs fs' : FileSystem) (fuel fuel' : Nat) (argv argv' args args' : List Str)
    (os os' : List Opt) (out out' : List (VMsg CheckMsg))
    (hm : Means CHECK_INSTRUCTIONS_OPTS argv os args)
    (hm' : Means CHECK_INSTRUCTIONS_OPTS argv' os' args')
    (hc : Given os (py "count")) (hc' : Given os' (py "count"))
    (h : checkInstructionsCmd fs fuel argv = (out, .ok ()))
    (h' : checkInstructionsCmd fs' fuel' argv' = (out', .ok ()))
    (ht : checkStdout out = checkStdout out') :
    ∃ src src', Sources fs args src ∧ Sources fs' args' src' ∧ src.length = src'.length ∧
      (src.filter fun s => decide (∃ i, HasInstr s i)).length =
        (src'.filter fun s => decide (∃ i, HasInstr s i)).length ∧
      (∀ i ∈ INSTRUCTIONS, (src.filter fun s => decide (¬ Starred s ∧ HasInstr s i)).length =
        (src'.filter fun s => decide (¬ Starred s ∧ HasInstr s i)).length) ∧
      (src.filter fun s => decide (BadInstr s)).length =
        (src'.filter fun s => decide (BadInstr s)).length ∧
      (Given os (py "unused") ↔ Given os' (py "unused")) := by
  have h1 := checkCmd_run hm h
  have h1' := checkCmd_run hm' h'
  obtain ⟨st, head, hf, -, rfl⟩ := checkV_shape h1
  obtain ⟨st', head', hf', -, rfl⟩ := checkV_shape h1'
  rw [checkStdout_split, checkStdout_split] at ht
  obtain ⟨src, hs, a1, a2, a3, a4, -⟩ := C80_counts _ _ _ _ _ hf
  obtain ⟨src', hs', b1, b2, b3, b4, -⟩ := C80_counts _ _ _ _ _ hf'
  have keys : ∀ {fs fuel opts files st}, checkFiles fs fuel opts files CheckState.init = .ok st →
      st.instrtab.map (·.1) = INSTRUCTIONS := by
    intro fs fuel opts files st h
    obtain ⟨out, -, rfl⟩ := foldFiles_ok h
    exact (checkFold_spec opts _ _ (by rw [init_tab, List.map_map]; exact List.map_id _)).2.2.2.1
  obtain ⟨-, r1, r2, r3, r4, r5⟩ := report_read (by simpa using hc) (by simpa using hc') (keys hf)
    (keys hf') (whole_printed _) (whole_printed _) ht
  refine ⟨src, src', hs, hs', by rw [← a1, ← b1, r2], by rw [← a2, ← b2, r3], fun i hi => ?_,
    by rw [← a4, ← b4, r4], by simpa using r1⟩
  have h2 := (a3 i _).2 ⟨hi, rfl⟩
  rw [r5 i hi] at h2
  exact ((b3 i _).1 h2).2

/-- Two sources that are not the same and of which the same text is printed with `--count`. -/
def sameCountFs : FileSystem := fun f =>
  if f = py "A.arg" then some (py "        A          TN\n                   BA\n")
  else if f = py "B.arg" then some (py "                   BA\n# x\n                   TN\n")
  else none

/-- A case of C160. -/
example : Means CHECK_INSTRUCTIONS_OPTS [py "-c", py "A.arg"]
      [⟨py "-c", py "--count", some (py "count")⟩] [py "A.arg"] ∧
    Means CHECK_INSTRUCTIONS_OPTS [py "-c", py "B.arg"]
      [⟨py "-c", py "--count", some (py "count")⟩] [py "B.arg"] ∧
    (checkInstructionsCmd sameCountFs 10 [py "-c", py "A.arg"]).2 = .ok () ∧
    (checkInstructionsCmd sameCountFs 10 [py "-c", py "B.arg"]).2 = .ok () ∧
    checkStdout (checkInstructionsCmd sameCountFs 10 [py "-c", py "A.arg"]).1 =
      checkStdout (checkInstructionsCmd sameCountFs 10 [py "-c", py "B.arg"]).1 ∧
    checkStdout (checkInstructionsCmd sameCountFs 10 [py "-c", py "A.arg"]).1 ≠ [] := by
  refine ⟨?_, ?_, by decide +kernel, by decide +kernel, by decide +kernel, by decide +kernel⟩
  · exact .letters (cs := py "c") (os := [_]) (by decide) (.cons ⟨by decide, rfl⟩ .nil)
      (.plain (.inr (by decide)) .done)
  · exact .letters (cs := py "c") (os := [_]) (by decide) (.cons ⟨by decide, rfl⟩ .nil)
      (.plain (.inr (by decide)) .done)

end H800
