import Verif.Props.GenPages
import Verif.Props.Idle

/-!
Property C140: running genpages again.
-/

namespace H800

open Spec

/-! ### Auxiliary facts -/

theorem wordsAux_newline (u s : Str) : wordsAux u (s ++ ['\n']) = wordsAux u s := by
  induction s generalizing u with
  | nil =>
    have h : isSpace '\n' = true := by decide
    simp only [List.nil_append, wordsAux, if_pos h, if_pos]
  | cons c s ih =>
    rw [List.cons_append, wordsAux, wordsAux]
    simp only [ih]

theorem hasPrefix_newline {p s : Str} (h : '\n' ∉ p) : hasPrefix p (s ++ ['\n']) = hasPrefix p s := by
  unfold hasPrefix
  rw [Bool.eq_iff_iff, List.isPrefixOf_iff_prefix, List.isPrefixOf_iff_prefix]
  constructor
  · intro hp
    rcases List.prefix_concat_iff.1 hp with rfl | hp
    · exact absurd (by simp) h
    · exact hp
  · exact fun hp => hp.trans (List.prefix_append _ _)

theorem pagesStep_newline (st : PagesState) (s : Str) :
    pagesStep st (s ++ ['\n']) = pagesStep st s := by
  unfold pagesStep sectionOf pagesOf pyWords
  rw [wordsAux_newline, hasPrefix_newline (by decide), hasPrefix_newline (by decide)]

theorem remove_none {s : Str} (h : '\n' ∉ s) : remove s '\n' = s := by
  unfold remove
  rw [List.filter_eq_self]
  intro c hc
  simp only [ne_eq, decide_not, Bool.not_eq_eq_eq_not, Bool.not_true, decide_eq_false_iff_not]
  rintro rfl
  exact h hc

theorem remove_last {s : Str} (h : '\n' ∉ s) : remove (s ++ ['\n']) '\n' = s := by
  have := remove_none h
  unfold remove at this ⊢
  rw [List.filter_append, this]
  simp

/-- A line of a file. -/
def FileLine (l : Str) : Prop := ∃ t, '\n' ∉ t ∧ (l = t ∨ l = t ++ ['\n'])

theorem fold_chomp {ls : List Str} (h : ∀ l ∈ ls, FileLine l) (st : PagesState) :
    ls.foldlM pagesStep st = (ls.map (remove · '\n')).foldlM pagesStep st := by
  induction ls generalizing st with
  | nil => rfl
  | cons l ls ih =>
    have e : pagesStep st l = pagesStep st (remove l '\n') := by
      obtain ⟨t, ht, rfl | rfl⟩ := h l List.mem_cons_self
      · rw [remove_none ht]
      · rw [remove_last ht, pagesStep_newline]
    rw [List.map_cons, List.foldlM_cons, List.foldlM_cons, e]
    congr 1
    funext st'
    exact ih (fun x hx => h x (List.mem_cons_of_mem _ hx)) st'

theorem logOf_chomp {ls : List Str} (h : ∀ l ∈ ls, FileLine l) :
    logOf ls = logOf (ls.map (remove · '\n')) := by
  induction ls with
  | nil => rfl
  | cons l ls ih =>
    have ih := ih fun x hx => h x (List.mem_cons_of_mem _ hx)
    obtain ⟨t, ht, rfl | rfl⟩ := h l List.mem_cons_self
    · rw [List.map_cons, remove_none ht, logOf, logOf, ih]
    · rw [List.map_cons, remove_last ht, logOf, logOf, ih, remove_last ht, remove_none ht]
      have h1 : (t ++ ['\n']).head? = some 'L' ↔ t.head? = some 'L' := by
        cases t <;> simp
      have h2 : val (columns (t ++ ['\n']) 8 9) = val (columns t 8 9) := by
        unfold columns
        rcases Nat.lt_trichotomy t.length 7 with h | h | h
        · rw [List.drop_of_length_le (by simp; omega), List.drop_of_length_le (by omega)]
        · rw [List.drop_append_of_le_length (by omega), List.drop_of_length_le (by omega)]
          decide
        · rw [List.drop_append_of_le_length (by omega), List.take_append_of_le_length (by simp; omega)]
      rw [h2]
      by_cases hL : t.head? = some 'L'
      · rw [if_pos hL, if_pos (h1.2 hL)]
      · rw [if_neg hL, if_neg fun e => hL (h1.1 e)]

theorem pagesInfo_chomp (fs : FileSystem) (fuel : Nat) {ls : List Str} (h : ∀ l ∈ ls, FileLine l) :
    pagesInfo fs fuel ls = pagesInfo fs fuel (ls.map (remove · '\n')) := by
  rw [pagesInfo_eq, pagesInfo_eq, ← logOf_chomp h, fold_chomp h]

theorem readlines_chomp (text rest : Str) :
    ∃ E : List Str, (E = [] ∨ E = [[]]) ∧
      (readlines (text ++ '\n' :: rest)).map (remove · '\n') =
        (readlines text).map (remove · '\n') ++ E ++ (readlines rest).map (remove · '\n') := by
  induction text with
  | nil =>
    refine ⟨[[]], Or.inr rfl, ?_⟩
    simp only [List.nil_append, readlines, if_pos]
    rfl
  | cons c s ih =>
    obtain ⟨E, hE, ih⟩ := ih
    rw [List.cons_append, readlines, readlines]
    by_cases hc : c = '\n'
    · rw [if_pos hc, if_pos hc]
      exact ⟨E, hE, by rw [List.map_cons, List.map_cons, ih]; rfl⟩
    · rw [if_neg hc, if_neg hc]
      cases s with
      | nil =>
        refine ⟨[], Or.inl rfl, ?_⟩
        rw [List.nil_append]
        simp only [readlines, if_pos]
        simp [remove, List.filter_cons]
      | cons d s =>
        have hne : readlines (d :: s) ≠ [] := by
          rw [readlines]
          split
          · simp
          · split <;> simp
        have hne' : readlines (d :: s ++ '\n' :: rest) ≠ [] := by
          rw [List.cons_append, readlines]
          split
          · simp
          · split <;> simp
        cases h1 : readlines (d :: s) with
        | nil => exact absurd h1 hne
        | cons m ms =>
          cases h2 : readlines (d :: s ++ '\n' :: rest) with
          | nil => exact absurd h2 hne'
          | cons m' ms' =>
            rw [h1, h2] at ih
            refine ⟨E, hE, ?_⟩
            simp only [List.map_cons, List.cons_append, List.cons.injEq] at ih ⊢
            refine ⟨?_, ih.2⟩
            have := ih.1
            unfold remove at this ⊢
            rw [List.filter_cons, List.filter_cons, this]

theorem fold_unsplit {lines : List Str} {s : Option Str × RVal} {p : Option (Int × Int)}
    {st : PagesState} (h : lines.foldlM pagesStep ⟨s.1, s.2, p⟩ = .ok st) :
    lines.foldlM secStep s = .ok (st.section_, st.col8) ∧
    lines.foldlM pgStep p = .ok st.pages := by
  induction lines generalizing s p with
  | nil => cases h; exact ⟨rfl, rfl⟩
  | cons l ls ih =>
    rw [List.foldlM_cons, pagesStep_split] at h
    rw [List.foldlM_cons, List.foldlM_cons]
    cases h1 : secStep s l with
    | error e => rw [h1] at h; cases h
    | ok s1 =>
      cases h2 : pgStep p l with
      | error e => rw [h1, h2] at h; cases h
      | ok p1 =>
        rw [h1, h2] at h
        exact ih h

theorem logOf_append (a b : List Str) :
    logOf (a ++ b) = if ∃ l ∈ a, l.head? = some 'L' then logOf a else logOf b := by
  induction a with
  | nil => simp
  | cons l a ih =>
    rw [List.cons_append, logOf, logOf]
    by_cases hl : l.head? = some 'L'
    · rw [if_pos hl, if_pos hl, if_pos ⟨l, List.mem_cons_self, hl⟩]
    · rw [if_neg hl, if_neg hl, ih]
      congr 1
      simp [hl]

theorem logOf_some {ls : List Str} (h : ∃ l ∈ ls, l.head? = some 'L') : ∃ x v, logOf ls = (some x, v) := by
  obtain ⟨l, hl, hL⟩ := h
  induction ls with
  | nil => cases hl
  | cons m ls ih =>
    rw [logOf]
    by_cases hm : m.head? = some 'L'
    · rw [if_pos hm]; exact ⟨_, _, rfl⟩
    · rw [if_neg hm]
      rcases List.mem_cons.1 hl with rfl | hl
      · exact absurd hL hm
      · exact ih hl

/-- The lines after the first of the ones appended. -/
def appended (col8 : RVal) (sec : Str) (start end_ : Int) : List Str :=
  (py "L      " ++ col8.toStr ++ sec ++ py "\n") ::
    (pyRange start (end_ + 1)).flatMap (pageLines col8 sec start)

theorem appended_flatten (col8 : RVal) (sec : Str) (start end_ : Int) :
    (pagesLines col8 sec start end_).flatten = '\n' :: (appended col8 sec start end_).flatten := rfl

theorem appended_line {col8 : RVal} {sec : Str} (hcol : '\n' ∉ col8.toStr) (hsec : '\n' ∉ sec)
    (start end_ : Int) {l : Str} (hl : l ∈ appended col8 sec start end_) :
    ∃ t, l = t ++ ['\n'] ∧ '\n' ∉ t ∧ ¬ Begins (py "# Pages: ") t := by
  have nb : ∀ {s : Str} (x : Char), s[6]? = some x → x ≠ 's' → ¬ Begins (py "# Pages: ") s := by
    rintro s x h1 h2 ⟨r, rfl⟩
    rw [List.getElem?_append_left (by decide)] at h1
    exact h2 (Option.some.inj (h1.symm.trans (by decide)))
  rcases List.mem_cons.1 hl with rfl | hl
  · refine ⟨py "L      " ++ col8.toStr ++ sec, rfl, ?_, ?_⟩
    · simp only [List.mem_append, not_or]
      exact ⟨⟨by decide, hcol⟩, hsec⟩
    · exact nb ' ' (by rw [List.append_assoc, List.getElem?_append_left (by decide)]; rfl) (by decide)
  · obtain ⟨n, -, hl⟩ := List.mem_flatMap.1 hl
    unfold pageLines at hl
    simp only [List.mem_cons, List.not_mem_nil, or_false] at hl
    have hempty : ¬ Begins (py "# Pages: ") [] := by rintro ⟨r, hr⟩; cases hr
    rcases hl with rfl | rfl | rfl | rfl
    · exact ⟨[], rfl, by simp, hempty⟩
    · refine ⟨py "# Page " ++ pyStr n, rfl, ?_, nb ' ' ?_ (by decide)⟩
      · simp only [List.mem_append, not_or]
        exact ⟨by decide, pyStr_newline n⟩
      · rw [List.getElem?_append_left (by decide)]; rfl
    · refine ⟨_, rfl, ?_, nb ' ' ?_ (by decide)⟩
      · have hpad : '\n' ∉ padLeft ' ' 4 (pyStr (n - start + 1)) := by
          unfold padLeft
          simp only [List.mem_append, not_or, List.mem_replicate]
          exact ⟨fun e => absurd e.2 (by decide), pyStr_newline _⟩
        have hpr : '\n' ∉ padRight 72 sec := by
          unfold padRight
          simp only [List.mem_append, not_or, List.mem_replicate]
          exact ⟨hsec, fun e => absurd e.2 (by decide)⟩
        simp only [List.mem_append, not_or]
        exact ⟨⟨⟨⟨⟨⟨by decide, hcol⟩, hpr⟩, by decide⟩, hpad⟩, by decide⟩, hpad⟩
      · simp only [List.append_assoc]
        rw [List.getElem?_append_left (by decide)]; rfl
    · exact ⟨[], rfl, by simp, hempty⟩

/-- What the next run finds. -/
theorem pagesInfo_next (fs fs' : FileSystem) (fuel : Nat) (text sec : Str) (col8 : RVal)
    (start end_ : Int)
    (hi : pagesInfo fs fuel (readlines text) = .ok ⟨some sec, col8, some (start, end_)⟩) :
    pagesInfo fs' fuel (readlines (text ++ (pagesLines col8 sec start end_).flatten)) =
      .ok (if ∃ l ∈ readlines text, l.head? = some 'L' then ⟨some sec, col8, some (start, end_)⟩
        else ⟨some (strip (slice (py "L      " ++ col8.toStr ++ sec) 8 81)),
          val (columns (py "L      " ++ col8.toStr ++ sec) 8 9), some (start, end_)⟩) := by
  obtain ⟨hsec, hcol⟩ := pagesInfo_newline hi
  have hsec := hsec sec rfl
  have hcol : '\n' ∉ col8.toStr := hcol
  have hlines := fun l (hl : l ∈ appended col8 sec start end_) =>
    appended_line hcol hsec start end_ hl
  rw [appended_flatten]
  have hfl : ∀ (t : Str), ∀ l ∈ readlines t, FileLine l := fun t l hl => readlines_line hl
  obtain ⟨E, hE, hch⟩ := readlines_chomp text (appended col8 sec start end_).flatten
  rw [pagesInfo_chomp fs' fuel (hfl _), hch, readlines_lines (fun l hl => by
    obtain ⟨t, h1, h2, -⟩ := hlines l hl; exact ⟨t, h1, h2⟩)]
  rw [pagesInfo_chomp fs fuel (hfl _)] at hi
  have hLs : (∃ l ∈ readlines text, l.head? = some 'L') ↔
      ∃ l ∈ (readlines text).map (remove · '\n'), l.head? = some 'L' := by
    have key : ∀ l ∈ readlines text, l.head? = some 'L' ↔ (remove l '\n').head? = some 'L' := by
      intro l hl
      obtain ⟨t, ht, rfl | rfl⟩ := hfl text l hl
      · rw [remove_none ht]
      · rw [remove_last ht]; cases t <;> simp
    constructor
    · rintro ⟨l, hl, h⟩
      exact ⟨_, List.mem_map.2 ⟨l, hl, rfl⟩, (key l hl).1 h⟩
    · rintro ⟨l', hl', h⟩
      obtain ⟨l, hl, rfl⟩ := List.mem_map.1 hl'
      exact ⟨l, hl, (key l hl).2 h⟩
  simp only [hLs]
  generalize (readlines text).map (remove · '\n') = A at *
  rw [pagesInfo_eq] at hi ⊢
  obtain ⟨h1, h2⟩ := fold_unsplit (s := logOf A) hi
  have hE' : ∀ l ∈ E, l = [] := by
    rcases hE with rfl | rfl <;> simp
  have hB : ∀ l ∈ (appended col8 sec start end_).map (remove · '\n'), ¬ Begins (py "# Pages: ") l := by
    intro l hl
    obtain ⟨m, hm, rfl⟩ := List.mem_map.1 hl
    obtain ⟨t, rfl, ht, hb⟩ := hlines m hm
    rw [remove_last ht]
    exact hb
  have hpg : (A ++ E ++ (appended col8 sec start end_).map (remove · '\n')).foldlM pgStep none =
      .ok (some (start, end_)) := by
    rw [List.append_assoc, foldlM_append_ok h2]
    refine pgFold_none (fun l hl => ?_) _
    rcases List.mem_append.1 hl with hl | hl
    · rw [hE' l hl]
      rintro ⟨r, hr⟩
      cases hr
    · exact hB l hl
  by_cases hL : ∃ l ∈ A, l.head? = some 'L'
  · rw [if_pos hL, List.append_assoc, logOf_append, if_pos hL]
    rw [List.append_assoc] at hpg
    obtain ⟨x, v, hx⟩ := logOf_some hL
    rw [hx] at h1 ⊢
    rw [secFold_some] at h1
    cases h1
    exact fold_split (s := (some sec, col8)) (secFold_some _ _ _) hpg
  · have hlog : logOf (A ++ E ++ (appended col8 sec start end_).map (remove · '\n')) =
        (some (strip (slice (py "L      " ++ col8.toStr ++ sec) 8 81)),
          val (columns (py "L      " ++ col8.toStr ++ sec) 8 9)) := by
      rw [logOf_append, if_neg, appended, List.map_cons]
      · have ht : '\n' ∉ py "L      " ++ col8.toStr ++ sec := by
          simp only [List.mem_append, not_or]
          exact ⟨⟨by decide, hcol⟩, hsec⟩
        rw [show py "L      " ++ col8.toStr ++ sec ++ py "\n" =
          (py "L      " ++ col8.toStr ++ sec) ++ ['\n'] from rfl, remove_last ht, logOf, remove_none ht]
        rfl
      · rintro ⟨l, hl, h⟩
        rcases List.mem_append.1 hl with hl | hl
        · exact hL ⟨l, hl, h⟩
        · rw [hE' l hl] at h; cases h
    rw [if_neg hL, hlog]
    exact fold_split (s := (some _, _)) (secFold_some _ _ _) hpg

theorem genpages_ok {fs fs' : FileSystem} {fuel : Nat} {file text : Str} (hf : fs file = some text)
    (h : genpages fs fuel [file] = (fs', .ok ())) :
    ∃ sec col8 start end_, pagesInfo fs fuel (readlines text) = .ok ⟨some sec, col8, some (start, end_)⟩ ∧
      start ≤ end_ ∧ fs' = writeFile fs file (text ++ (pagesLines col8 sec start end_).flatten) := by
  unfold genpages at h
  simp only [hf] at h
  cases hi : pagesInfo fs fuel (readlines text) with
  | error e => rw [hi] at h; cases h
  | ok st =>
    rw [hi] at h
    obtain ⟨sec, col8, pages⟩ := st
    cases sec with
    | none => cases h
    | some sec =>
      cases pages with
      | none => cases h
      | some p =>
        obtain ⟨start, end_⟩ := p
        simp only at h
        split at h
        · cases h
        · exact ⟨sec, col8, start, end_, rfl, by omega, by cases h; rfl⟩

theorem genpages_run {fs : FileSystem} {fuel : Nat} {file text sec : Str} {col8 : RVal} {start end_ : Int}
    (hf : fs file = some text)
    (hi : pagesInfo fs fuel (readlines text) = .ok ⟨some sec, col8, some (start, end_)⟩)
    (hle : start ≤ end_) :
    genpages fs fuel [file] =
      (writeFile fs file (text ++ (pagesLines col8 sec start end_).flatten), .ok ()) := by
  unfold genpages
  simp only [hf, hi]
  rw [if_neg (by omega)]

theorem writeFile_self (fs : FileSystem) (f t : Str) : writeFile fs f t f = some t := by
  rw [writeFile, if_pos rfl]

/-! ### C140 -/

/-- C140, in full: a second run of genpages on a file appends what the first one appended. -/
def C140_statement : Prop := ∀ (fs fs' : FileSystem) (fuel : Nat) (file text : Str),
  fs file = some text → genpages fs fuel [file] = (fs', .ok ()) →
  ∃ app fs'', fs' file = some (text ++ app) ∧ genpages fs' fuel [file] = (fs'', .ok ()) ∧
    fs'' file = some (text ++ app ++ app)

/-- C140 is false: the section named after the file `_A.arg` begins with a space, which is lost
when the log card is read back. -/
theorem C140_refuted : ¬ C140_statement := by
  intro h
  have h1 : genpages (fun f => if f = py "A" then some (py "# Filename: _A.arg\n# Pages: 1\n") else none)
      0 [py "A"] = (writeFile _ (py "A") _, .ok ()) :=
    genpages_run (sec := py " A") (col8 := .str (py "@")) (start := 1) (end_ := 1) rfl
      (by decide +kernel) (by decide)
  obtain ⟨app, fs'', g1, g2, g3⟩ := h (fun f => if f = py "A" then some (py "# Filename: _A.arg\n# Pages: 1\n") else none) _ 0
    (py "A") (py "# Filename: _A.arg\n# Pages: 1\n") rfl h1
  rw [writeFile_self, Option.some.injEq] at g1
  have ha := List.append_cancel_left g1
  have h2 := genpages_run (fuel := 0) (sec := py "A") (col8 := .str (py "@")) (start := 1) (end_ := 1)
    (writeFile_self (fun f => if f = py "A" then some (py "# Filename: _A.arg\n# Pages: 1\n") else none)
      (py "A") (py "# Filename: _A.arg\n# Pages: 1\n" ++
        (pagesLines (.str (py "@")) (py " A") 1 1).flatten)) (by decide +kernel) (by decide)
  rw [h2] at g2
  cases g2
  rw [writeFile_self, Option.some.injEq, ← ha] at g3
  revert g3
  decide +kernel

/-- C140, what holds: for a file with a log card a second run appends what the first one appended. -/
theorem C140_log_card_partial (fs fs' : FileSystem) (fuel : Nat) (file text : Str)
    (hf : fs file = some text) (h : genpages fs fuel [file] = (fs', .ok ()))
    (hL : ∃ l ∈ readlines text, l.head? = some 'L') :
    ∃ app fs'', fs' file = some (text ++ app) ∧ genpages fs' fuel [file] = (fs'', .ok ()) ∧
      fs'' file = some (text ++ app ++ app) := by
  obtain ⟨sec, col8, start, end_, hi, hle, rfl⟩ := genpages_ok hf h
  have hn := pagesInfo_next fs (writeFile fs file (text ++ (pagesLines col8 sec start end_).flatten))
    fuel text sec col8 start end_ hi
  rw [if_pos hL] at hn
  exact ⟨_, _, writeFile_self _ _ _, genpages_run (writeFile_self _ _ _) hn hle, writeFile_self _ _ _⟩

/-- C140: so it does for a file without log card whose name, up to the first point, has at most 73
characters and does not begin or end with an underscore. -/
theorem C140_filename_partial (fs fs' : FileSystem) (fuel : Nat) (file text name p : Str)
    (hf : fs file = some text) (h : genpages fs fuel [file] = (fs', .ok ()))
    (hno : ∀ l ∈ readlines text, l.head? ≠ some 'L')
    (hname : FileComment (readlines text) name) (hbf : BeforeFirst '.' name p) (hlen : p.length ≤ 73)
    (hb : p.head? ≠ some '_') (he : p.getLast? ≠ some '_') :
    ∃ app fs'', fs' file = some (text ++ app) ∧ genpages fs' fuel [file] = (fs'', .ok ()) ∧
      fs'' file = some (text ++ app ++ app) := by
  obtain ⟨sec, col8, start, end_, hi, hle, rfl⟩ := genpages_ok hf h
  have hn := pagesInfo_next fs (writeFile fs file (text ++ (pagesLines col8 sec start end_).flatten))
    fuel text sec col8 start end_ hi
  rw [if_neg (by rintro ⟨l, hl, e⟩; exact hno l hl e)] at hn
  rw [pagesInfo_eq] at hi
  obtain ⟨h1, -⟩ := fold_unsplit (s := logOf (readlines text)) hi
  rw [logOf_none hno, secFold_file hname hbf] at h1
  simp only [Except.ok.injEq, Prod.mk.injEq, Option.some.injEq] at h1
  obtain ⟨hsec, rfl⟩ := h1
  have hsp : ∀ c ∈ p, isSpace c = false := by
    obtain ⟨_, _, _, _, _, hw⟩ := hname
    intro c hc
    apply hw.2.1 c
    rcases hbf.2 with rfl | ⟨r, rfl⟩
    · exact hc
    · simp [hc]
  have htr : Trimmed sec := by
    constructor
    · intro c hc
      rw [← hsec, List.head?_map] at hc
      obtain ⟨x, hx, rfl⟩ := Option.map_eq_some_iff.1 hc
      rw [if_neg (by rintro rfl; exact hb hx)]
      exact hsp x (List.mem_of_mem_head? hx)
    · intro c hc
      rw [← hsec, List.getLast?_map] at hc
      obtain ⟨x, hx, rfl⟩ := Option.map_eq_some_iff.1 hc
      rw [if_neg (by rintro rfl; exact he hx)]
      exact hsp x (List.mem_of_mem_getLast? hx)
  have hs : strip (slice (py "L      " ++ (RVal.str (py "@")).toStr ++ sec) 8 81) = sec := by
    rw [slice_nonneg _ (by omega) (by omega)]
    show strip (sec.take 73) = sec
    rw [List.take_of_length_le (by rw [← hsec, List.length_map]; exact hlen), strip_trimmed htr]
  have hv : val (columns (py "L      " ++ (RVal.str (py "@")).toStr ++ sec) 8 9) = .str (py "@") := by
    show val (List.take 1 ('@' :: sec)) = .str (py "@")
    rw [List.take_succ_cons, List.take_zero]
    decide
  rw [hs, hv] at hn
  exact ⟨_, _, writeFile_self _ _ _, genpages_run (writeFile_self _ _ _) hn hle, writeFile_self _ _ _⟩

/-- C140: for a file without log card it does exactly then. -/
theorem C140_exact_partial (fs fs' : FileSystem) (fuel : Nat) (file text name p : Str)
    (hf : fs file = some text) (h : genpages fs fuel [file] = (fs', .ok ()))
    (hno : ∀ l ∈ readlines text, l.head? ≠ some 'L')
    (hname : FileComment (readlines text) name) (hbf : BeforeFirst '.' name p) :
    (∃ app fs'', fs' file = some (text ++ app) ∧ genpages fs' fuel [file] = (fs'', .ok ()) ∧
      fs'' file = some (text ++ app ++ app)) ↔
    p.length ≤ 73 ∧ p.head? ≠ some '_' ∧ p.getLast? ≠ some '_' := by
  refine ⟨?_, fun ⟨hlen, hb, he⟩ =>
    C140_filename_partial fs fs' fuel file text name p hf h hno hname hbf hlen hb he⟩
  rintro ⟨app, fs'', g1, g2, g3⟩
  obtain ⟨sec, col8, start, end_, hi, hle, rfl⟩ := genpages_ok hf h
  have hn := pagesInfo_next fs (writeFile fs file (text ++ (pagesLines col8 sec start end_).flatten))
    fuel text sec col8 start end_ hi
  rw [if_neg (by rintro ⟨l, hl, e⟩; exact hno l hl e)] at hn
  have hsecn := (pagesInfo_newline hi).1 sec rfl
  rw [pagesInfo_eq] at hi
  obtain ⟨h1, -⟩ := fold_unsplit (s := logOf (readlines text)) hi
  rw [logOf_none hno, secFold_file hname hbf] at h1
  simp only [Except.ok.injEq, Prod.mk.injEq, Option.some.injEq] at h1
  obtain ⟨hsec, rfl⟩ := h1
  have hs : strip (slice (py "L      " ++ (RVal.str (py "@")).toStr ++ sec) 8 81) = strip (sec.take 73) := by
    rw [slice_nonneg _ (by omega) (by omega)]
    rfl
  have hv : val (columns (py "L      " ++ (RVal.str (py "@")).toStr ++ sec) 8 9) = .str (py "@") := by
    show val (List.take 1 ('@' :: sec)) = .str (py "@")
    rw [List.take_succ_cons, List.take_zero]
    decide
  rw [hs, hv] at hn
  have hsec2 := (pagesInfo_newline hn).1 _ rfl
  rw [genpages_run (writeFile_self _ _ _) hn hle] at g2
  cases g2
  rw [writeFile_self, Option.some.injEq] at g1 g3
  obtain rfl := List.append_cancel_left g1
  have e := List.append_cancel_left g3
  rw [appended_flatten, appended_flatten, List.cons.injEq] at e
  have e := e.2
  unfold appended at e
  rw [List.flatten_cons, List.flatten_cons] at e
  simp only [List.append_assoc] at e
  have e := List.append_cancel_left (List.append_cancel_left e)
  have cut : ∀ {a b r r' : Str}, '\n' ∉ a → '\n' ∉ b → a ++ (py "\n" ++ r) = b ++ (py "\n" ++ r') →
      a = b := by
    intro a
    induction a with
    | nil =>
      intro b r r' _ hb hab
      cases b with
      | nil => rfl
      | cons x b =>
        injection hab with hx _
        exact absurd (hx ▸ List.mem_cons_self) hb
    | cons y a ih =>
      intro b r r' ha hb hab
      cases b with
      | nil =>
        injection hab with hx _
        exact absurd (hx ▸ List.mem_cons_self) ha
      | cons x b =>
        injection hab with hx hab
        rw [hx, ih (fun h => ha (List.mem_cons_of_mem _ h)) (fun h => hb (List.mem_cons_of_mem _ h)) hab]
  have e := cut hsec2 hsecn e
  have htr : Trimmed sec := by
    have := (strip_stripped (sec.take 73)).1
    rwa [e] at this
  refine ⟨?_, fun hb => ?_, fun he => ?_⟩
  · have h2 := congrArg List.length e
    have h3 : (strip (sec.take 73)).length ≤ (sec.take 73).length := by
      obtain ⟨-, a, b, -, -, hab⟩ := strip_stripped (sec.take 73)
      have := congrArg List.length hab
      simp only [List.length_append] at this
      omega
    rw [List.length_take] at h3
    rw [← hsec, List.length_map] at h2 h3
    omega
  · have := htr.1 ' ' (by rw [← hsec, List.head?_map, hb]; rfl)
    exact absurd this (by decide)
  · have := htr.2 ' ' (by rw [← hsec, List.getLast?_map, he]; rfl)
    exact absurd this (by decide)

/-- `n` runs of genpages on a file, as long as they succeed. -/
def genpagesTimes (fs : FileSystem) (fuel : Nat) (file : Str) : Nat → FileSystem × Py Unit
  | 0 => (fs, .ok ())
  | n + 1 =>
    match genpagesTimes fs fuel file n with
    | (fs', .ok ()) => genpages fs' fuel [file]
    | r => r

/-- C140: in any case, if the first run succeeds all later runs succeed, and from the second on they all
append the same text. -/
theorem C140_settles_partial (fs fs' : FileSystem) (fuel : Nat) (file text : Str)
    (hf : fs file = some text) (h : genpages fs fuel [file] = (fs', .ok ())) :
    ∃ first later, ∀ n, ∃ fs'', genpagesTimes fs fuel file (n + 1) = (fs'', .ok ()) ∧
      fs'' file = some (text ++ first ++ (List.replicate n later).flatten) := by
  obtain ⟨sec, col8, start, end_, hi, hle, rfl⟩ := genpages_ok hf h
  have hn := pagesInfo_next fs (writeFile fs file (text ++ (pagesLines col8 sec start end_).flatten))
    fuel text sec col8 start end_ hi
  obtain ⟨sec', col8', hn'⟩ : ∃ sec' col8', pagesInfo
      (writeFile fs file (text ++ (pagesLines col8 sec start end_).flatten)) fuel
      (readlines (text ++ (pagesLines col8 sec start end_).flatten)) =
      .ok ⟨some sec', col8', some (start, end_)⟩ := by
    by_cases hL : ∃ l ∈ readlines text, l.head? = some 'L'
    · rw [if_pos hL] at hn; exact ⟨_, _, hn⟩
    · rw [if_neg hL] at hn; exact ⟨_, _, hn⟩
  set app := (pagesLines col8 sec start end_).flatten with happ
  set app' := (pagesLines col8' sec' start end_).flatten with happ'
  -- after the first run there is a log card
  have hL : ∀ more, ∃ l ∈ readlines (text ++ app ++ more), l.head? = some 'L' := by
    intro more
    obtain ⟨hsec, hcol⟩ := pagesInfo_newline hi
    have hcol : '\n' ∉ col8.toStr := hcol
    have ht : '\n' ∉ py "L      " ++ col8.toStr ++ sec := by
      simp only [List.mem_append, not_or]
      exact ⟨⟨by decide, hcol⟩, hsec sec rfl⟩
    obtain ⟨E, -, hE⟩ := readlines_chomp text ((appended col8 sec start end_).flatten ++ more)
    have e : text ++ app ++ more = text ++ '\n' :: ((appended col8 sec start end_).flatten ++ more) := by
      rw [happ, appended_flatten]; simp
    rw [← e] at hE
    have hm : (py "L      " ++ col8.toStr ++ sec) ∈
        (readlines ((appended col8 sec start end_).flatten ++ more)).map (remove · '\n') := by
      rw [appended, List.flatten_cons]
      rw [show py "L      " ++ col8.toStr ++ sec ++ py "\n" =
        (py "L      " ++ col8.toStr ++ sec) ++ ['\n'] from rfl]
      rw [List.append_assoc, List.append_assoc _ ['\n'], List.singleton_append, readlines_append ht,
        List.map_cons, remove_last ht]
      exact List.mem_cons_self
    have hm2 : (py "L      " ++ col8.toStr ++ sec) ∈
        (readlines (text ++ app ++ more)).map (remove · '\n') := by
      rw [hE]; exact List.mem_append_right _ hm
    obtain ⟨l, hl, el⟩ := List.mem_map.1 hm2
    refine ⟨l, hl, ?_⟩
    obtain ⟨t, ht', rfl | rfl⟩ := readlines_line hl
    · rw [remove_none ht'] at el; rw [el]; rfl
    · rw [remove_last ht'] at el; rw [el]; rfl
  refine ⟨app, app', fun n => ?_⟩
  have key : ∀ n, ∃ fs'', genpagesTimes fs fuel file (n + 1) = (fs'', .ok ()) ∧
      fs'' file = some (text ++ app ++ (List.replicate n app').flatten) ∧
      pagesInfo fs'' fuel (readlines (text ++ app ++ (List.replicate n app').flatten)) =
        .ok ⟨some sec', col8', some (start, end_)⟩ := by
    intro n
    induction n with
    | zero =>
      refine ⟨writeFile fs file (text ++ app), ?_, by simp [writeFile_self], by simpa using hn'⟩
      show genpages fs fuel [file] = _
      exact genpages_run hf hi hle
    | succ n ih =>
      obtain ⟨fs'', k1, k2, k3⟩ := ih
      have k4 := genpages_run k2 k3 hle
      have k5 := pagesInfo_next fs'' (writeFile fs'' file (text ++ app ++
        (List.replicate n app').flatten ++ app')) fuel _ _ _ _ _ k3
      rw [if_pos (hL _)] at k5
      have e : text ++ app ++ (List.replicate (n + 1) app').flatten =
          text ++ app ++ (List.replicate n app').flatten ++ app' := by
        rw [List.replicate_succ', List.flatten_append]
        simp
      refine ⟨writeFile fs'' file (text ++ app ++ (List.replicate n app').flatten ++ app'), ?_, ?_, ?_⟩
      · rw [genpagesTimes, k1]
        exact k4
      · rw [e]; exact writeFile_self _ _ _
      · rw [e]; exact k5
  obtain ⟨fs'', k1, k2, -⟩ := key n
  exact ⟨fs'', k1, k2⟩

/-- The hypotheses of C140 on the example of C86, which has a log card, and on a file without. -/
example : (∃ l ∈ readlines pagesText, l.head? = some 'L') ∧
    (genpages pagesFs 0 [py "A.arg"]).2 = .ok () := by
  refine ⟨⟨py "L      @TEST\n", by decide +kernel, rfl⟩, by decide +kernel⟩

example : (∀ l ∈ readlines (py "# Filename: A_B.arg\n# Pages: 1-2"), l.head? ≠ some 'L') ∧
    FileComment (readlines (py "# Filename: A_B.arg\n# Pages: 1-2")) (py "A_B.arg") ∧
    BeforeFirst '.' (py "A_B.arg") (py "A_B") ∧
    (genpages (fun _ => some (py "# Filename: A_B.arg\n# Pages: 1-2")) 0 [py "A.arg"]).2 = .ok () := by
  refine ⟨by decide +kernel, ⟨[], [py "# Pages: 1-2"], py "A_B.arg\n", by decide, by simp, by decide,
    by decide, [], py "\n", blank_nil, rfl, by decide⟩, ⟨by decide, Or.inr ⟨py "arg", rfl⟩⟩,
    by decide +kernel⟩

end H800
