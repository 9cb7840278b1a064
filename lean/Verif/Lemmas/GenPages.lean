import Verif.Lemmas.Gen

/-!
Lemmas on genpages.
-/

namespace H800

open Spec

/-! ### The log section of a list of lines -/

/-- Log section and column 8 of the first log card. -/
def logOf : List Str → Option Str × RVal
  | [] => (none, .none)
  | l :: ls =>
    if l.head? = some 'L' then (some (strip (slice (remove l '\n') 8 81)), val (columns l 8 9))
    else logOf ls

theorem fromLines_log (lines : List Str) (i : Nat) :
    ∃ cards, Deck.fromLines argusClass DEFAULT_WIDTH DEFAULT_FIELDS none i lines = .ok cards ∧
      (∃ bodies, cards.mapM PunchCard.getBody = .ok bodies) ∧
      ArgusDeck.findLog cards = .ok (logOf lines) := by
  induction lines generalizing i with
  | nil => exact ⟨[], rfl, ⟨[], rfl⟩, rfl⟩
  | cons l ls ih =>
    obtain ⟨cards, h1, ⟨bs, h2⟩, h3⟩ := ih (i + 1)
    rw [Deck.fromLines]
    by_cases hc : l.head? = some '#'
    · rw [if_pos (startsWith_iff.2 hc)]
      refine ⟨cards, h1, ⟨bs, h2⟩, ?_⟩
      rw [logOf, if_neg (by rw [hc]; simp)]
      exact h3
    · rw [if_neg (fun e => hc (startsWith_iff.1 e)), argus_eq l hc none _, py_bind_ok, h1, py_bind_ok]
      refine ⟨_, rfl, ⟨_, mapM_cons_ok.2 ⟨_, _, rfl, h2, rfl⟩⟩, ?_⟩
      obtain ⟨i1, -, i8, -⟩ := argus_items l ((i : Int) + 1)
      rw [ArgusDeck.findLog]
      simp only [PunchCard.item, PunchCard.record, PunchCard.getBody, py_bind_ok, py_pure]
      rw [i1, py_bind_ok, logOf]
      have hL := column1_val l 'L' (by decide)
      by_cases hl : l.head? = some 'L'
      · rw [if_pos (hL.2 hl), if_pos hl, i8]
        rfl
      · rw [if_neg (fun e => hl (hL.1 e)), if_neg hl]
        exact h3

theorem deck_log (fs : FileSystem) (fuel : Nat) (lines : List Str) :
    ∃ d, ArgusDeck.init fs fuel (some lines) none DEFAULT_WIDTH DEFAULT_FIELDS argusClass = .ok d ∧
      d.logSection = (logOf lines).1 ∧ d.logSectionCol8 = (logOf lines).2 := by
  obtain ⟨cards, h1, ⟨bs, h2⟩, h3⟩ := fromLines_log lines 0
  have hd : Deck.init fs fuel (some lines) none DEFAULT_WIDTH DEFAULT_FIELDS argusClass =
      .ok ⟨lines, cards, bs.map (·.fields), bs.map (·.stripped), bs.map (·.record)⟩ := by
    rw [Deck.init]
    · rw [h1, py_bind_ok, Deck.collect, h2]
      rfl
    all_goals simp
  unfold ArgusDeck.init
  rw [hd, py_bind_ok]
  simp only
  rw [h3]
  exact ⟨_, rfl, rfl, rfl⟩

theorem logOf_card {lines : List Str} {line : Str} (h : LogCard lines line) :
    logOf lines = (some (strip (slice (remove line '\n') 8 81)), val (columns line 8 9)) := by
  obtain ⟨pre, post, rfl, hl, hpre⟩ := h
  induction pre with
  | nil => rw [List.nil_append, logOf, if_pos hl]
  | cons x pre ih =>
    rw [List.cons_append, logOf, if_neg (hpre x List.mem_cons_self)]
    exact ih fun l hm => hpre l (List.mem_cons_of_mem _ hm)

theorem logOf_none {lines : List Str} (h : ∀ l ∈ lines, l.head? ≠ some 'L') :
    logOf lines = (none, .none) := by
  induction lines with
  | nil => rfl
  | cons x ls ih =>
    rw [logOf, if_neg (h x List.mem_cons_self)]
    exact ih fun l hm => h l (List.mem_cons_of_mem _ hm)

/-! ### Words -/

theorem wordsAux_blank {a : Str} (ha : Blank a) (s : Str) : wordsAux [] (a ++ s) = wordsAux [] s := by
  induction a with
  | nil => rfl
  | cons c a ih =>
    rw [List.cons_append, wordsAux, if_pos (ha c List.mem_cons_self), if_pos rfl]
    exact ih fun x hx => ha x (List.mem_cons_of_mem _ hx)

theorem wordsAux_word {w : Str} (hw : ∀ c ∈ w, isSpace c = false) (u s : Str) :
    wordsAux u (w ++ s) = wordsAux (w.reverse ++ u) s := by
  induction w generalizing u with
  | nil => rfl
  | cons c w ih =>
    rw [List.cons_append, wordsAux, if_neg (by rw [hw c List.mem_cons_self]; simp),
      ih fun x hx => hw x (List.mem_cons_of_mem _ hx)]
    simp

theorem pyWords_first {s w : Str} (h : Word1 s w) : ∃ l, pyWords s = w :: l := by
  obtain ⟨hne, hw, a, r, ha, rfl, hr⟩ := h
  unfold pyWords
  rw [List.append_assoc, wordsAux_blank ha, wordsAux_word hw, List.append_nil]
  have hr0 : w.reverse ≠ [] := by simpa using hne
  cases r with
  | nil => rw [wordsAux, if_neg hr0]; exact ⟨[], by simp⟩
  | cons c r =>
    rw [wordsAux, if_pos (hr c rfl), if_neg hr0]
    exact ⟨_, by rw [List.reverse_reverse]⟩

theorem word_trimmed {s w : Str} (h : Word1 s w) : strip w = w :=
  strip_trimmed ⟨fun c hc => h.2.1 c (List.mem_of_mem_head? hc),
    fun c hc => h.2.1 c (List.mem_of_mem_getLast? hc)⟩

theorem hasPrefix_begins {p s : Str} : hasPrefix p s = true ↔ Begins p s := by
  unfold hasPrefix Begins
  rw [List.isPrefixOf_iff_prefix]
  exact ⟨fun ⟨r, h⟩ => ⟨r, h.symm⟩, fun ⟨r, h⟩ => ⟨r, h.symm⟩⟩

theorem third_word_pages {rest w : Str} (h : Word1 rest w) :
    getE (pyWords (py "# Pages: " ++ rest)) 2 = .ok w := by
  obtain ⟨l, hl⟩ := pyWords_first h
  have : pyWords (py "# Pages: " ++ rest) = py "#" :: py "Pages:" :: pyWords rest := rfl
  rw [this, hl]
  rfl

theorem third_word_file {rest w : Str} (h : Word1 rest w) :
    getE (pyWords (py "# Filename: " ++ rest)) 2 = .ok w := by
  obtain ⟨l, hl⟩ := pyWords_first h
  have : pyWords (py "# Filename: " ++ rest) = py "#" :: py "Filename:" :: pyWords rest := rfl
  rw [this, hl]
  rfl

theorem decimal_no_minus {s : Str} {n : Nat} (h : Decimal s n) : '-' ∉ s := by
  intro hm
  exact digit_ne (h.2.1 _ hm) (d := '-') (by decide) rfl

theorem pyInt_decimal {s : Str} {n : Nat} (h : Decimal s n) : pyInt s = .ok (n : Int) :=
  pyInt_signed (Or.inl ⟨by omega, by simpa using h⟩)

theorem pagesOf_span {line : Str} {a b : Nat} (h : PageSpan line a b) :
    pagesOf line = .ok ((a : Int), (b : Int)) := by
  obtain ⟨rest, w, rfl, hw, h⟩ := h
  unfold pagesOf
  rw [third_word_pages hw, py_bind_ok]
  simp only [word_trimmed hw]
  rcases h with ⟨x, y, hx, hy, rfl⟩ | ⟨hd, rfl⟩
  · rw [if_pos (by simp), pySplit_last (decimal_no_minus hy), pySplit_none (decimal_no_minus hx)]
    simp only [List.cons_append, List.nil_append, List.getD_cons_zero, List.getD_cons_succ]
    rw [pyInt_decimal hx, py_bind_ok, pyInt_decimal hy, py_bind_ok]
    rfl
  · rw [if_neg (by simpa using decimal_no_minus hd), pyInt_decimal hd, py_bind_ok]
    rfl

theorem sectionOf_name {rest name p : Str} (h : Word1 rest name) (hp : BeforeFirst '.' name p) :
    sectionOf (py "# Filename: " ++ rest) = .ok (p.map fun c => if c = '_' then ' ' else c) := by
  unfold sectionOf
  rw [third_word_file h, py_bind_ok]
  simp only [word_trimmed h]
  have : (if name.contains '.' = true then splitFirst name '.' else name) = p := by
    rw [← beforeFirst_unique hp]
    split
    · rfl
    · rename_i hn
      unfold splitFirst
      rw [takeWhile_all]
      intro c hc
      simp only [ne_eq, decide_not, Bool.not_eq_eq_eq_not, Bool.not_true, decide_eq_false_iff_not]
      rintro rfl
      exact hn (by simpa using hc)
  rw [this]
  rfl

/-! ### The loop -/

/-- The effect of a line on log section and column 8. -/
def secStep (s : Option Str × RVal) (line : Str) : Py (Option Str × RVal) :=
  if s.1.isNone && hasPrefix (py "# Filename: ") line then do
    let x ← sectionOf line
    return (some x, .str (py "@"))
  else .ok s

/-- The effect of a line on the page range. -/
def pgStep (p : Option (Int × Int)) (line : Str) : Py (Option (Int × Int)) :=
  if hasPrefix (py "# Pages: ") line then do
    let x ← pagesOf line
    return some x
  else .ok p

theorem pagesStep_split (s : Option Str × RVal) (p : Option (Int × Int)) (line : Str) :
    pagesStep ⟨s.1, s.2, p⟩ line = (do
      let s' ← secStep s line
      let p' ← pgStep p line
      return ⟨s'.1, s'.2, p'⟩) := by
  unfold pagesStep secStep pgStep
  simp only
  split
  · cases sectionOf line with
    | error e => rfl
    | ok x =>
      simp only [py_bind_ok, py_pure]
      split
      · cases pagesOf line <;> rfl
      · rfl
  · simp only [py_bind_ok, py_pure]
    split
    · cases pagesOf line <;> rfl
    · rfl

theorem fold_split {lines : List Str} {s s' : Option Str × RVal} {p p' : Option (Int × Int)}
    (hs : lines.foldlM secStep s = .ok s') (hp : lines.foldlM pgStep p = .ok p') :
    lines.foldlM pagesStep ⟨s.1, s.2, p⟩ = .ok ⟨s'.1, s'.2, p'⟩ := by
  induction lines generalizing s p with
  | nil => cases hs; cases hp; rfl
  | cons l ls ih =>
    rw [List.foldlM_cons] at hs hp ⊢
    rw [pagesStep_split]
    cases h1 : secStep s l with
    | error e => rw [h1] at hs; cases hs
    | ok s1 =>
      cases h2 : pgStep p l with
      | error e => rw [h2] at hp; cases hp
      | ok p1 =>
        rw [h1, py_bind_ok] at hs
        rw [h2, py_bind_ok] at hp
        simp only [py_bind_ok, py_pure]
        exact ih hs hp

theorem secFold_some (lines : List Str) (x : Str) (v : RVal) :
    lines.foldlM secStep (some x, v) = .ok (some x, v) := by
  induction lines with
  | nil => rfl
  | cons l ls ih =>
    rw [List.foldlM_cons, secStep, if_neg (by simp), py_bind_ok]
    exact ih

theorem secFold_none {lines : List Str} (h : ∀ l ∈ lines, ¬ Begins (py "# Filename: ") l) (v : RVal) :
    lines.foldlM secStep (none, v) = .ok (none, v) := by
  induction lines with
  | nil => rfl
  | cons l ls ih =>
    rw [List.foldlM_cons, secStep, if_neg, py_bind_ok]
    · exact ih fun x hx => h x (List.mem_cons_of_mem _ hx)
    · simp only [Option.isNone_none, Bool.true_and]
      exact fun e => h l List.mem_cons_self (hasPrefix_begins.1 e)

theorem foldlM_append_ok {α β : Type} {f : β → α → Py β} {a b : List α} {x y : β}
    (h : a.foldlM f x = .ok y) : (a ++ b).foldlM f x = b.foldlM f y := by
  rw [List.foldlM_append, h]; rfl

theorem secFold_file {lines : List Str} {name p : Str} (h : FileComment lines name)
    (hp : BeforeFirst '.' name p) (v : RVal) :
    lines.foldlM secStep (none, v) =
      .ok (some (p.map fun c => if c = '_' then ' ' else c), .str (py "@")) := by
  obtain ⟨pre, post, rest, rfl, hpre, hw⟩ := h
  rw [foldlM_append_ok (secFold_none hpre v), List.foldlM_cons, secStep, if_pos, sectionOf_name hw hp]
  · simp only [py_bind_ok, py_pure]
    exact secFold_some _ _ _
  · simp only [Option.isNone_none, Bool.true_and]
    exact hasPrefix_begins.2 ⟨rest, rfl⟩

theorem pgFold_none {lines : List Str} (h : ∀ l ∈ lines, ¬ Begins (py "# Pages: ") l)
    (p : Option (Int × Int)) : lines.foldlM pgStep p = .ok p := by
  induction lines with
  | nil => rfl
  | cons l ls ih =>
    rw [List.foldlM_cons, pgStep, if_neg (fun e => h l List.mem_cons_self (hasPrefix_begins.1 e)),
      py_bind_ok]
    exact ih fun x hx => h x (List.mem_cons_of_mem _ hx)

theorem pgFold_spans {lines : List Str}
    (h : ∀ l ∈ lines, Begins (py "# Pages: ") l → ∃ a b, PageSpan l a b) (p : Option (Int × Int)) :
    ∃ p', lines.foldlM pgStep p = .ok p' := by
  induction lines generalizing p with
  | nil => exact ⟨p, rfl⟩
  | cons l ls ih =>
    have ih := ih fun x hx => h x (List.mem_cons_of_mem _ hx)
    rw [List.foldlM_cons, pgStep]
    by_cases hc : hasPrefix (py "# Pages: ") l = true
    · obtain ⟨a, b, hs⟩ := h l List.mem_cons_self (hasPrefix_begins.1 hc)
      rw [if_pos hc, pagesOf_span hs]
      exact ih _
    · rw [if_neg hc, py_bind_ok]
      exact ih _

theorem pgFold_are {lines : List Str} {a b : Nat} (h : PagesAre lines a b)
    (p : Option (Int × Int)) : lines.foldlM pgStep p = .ok (some ((a : Int), (b : Int))) := by
  obtain ⟨pre, line, post, rfl, hs, hpost, hpre⟩ := h
  obtain ⟨p', hp'⟩ := pgFold_spans hpre p
  rw [foldlM_append_ok hp', List.foldlM_cons, pgStep, if_pos, pagesOf_span hs]
  · simp only [py_bind_ok, py_pure]
    exact pgFold_none hpost _
  · obtain ⟨rest, w, rfl, -⟩ := hs
    exact hasPrefix_begins.2 ⟨rest, rfl⟩

/-- The log section found, as printed. -/
theorem secFold_log {lines : List Str} {sec c8 : Str} (h : LogName lines sec c8) :
    ∃ v, lines.foldlM secStep (logOf lines) = .ok (some sec, v) ∧ RVal.toStr v = c8 := by
  rcases h with ⟨line, hl, hsec, h8⟩ | ⟨hn, rfl, name, p, hf, hp, rfl⟩
  · rw [logOf_card hl, secFold_some]
    have hs : strip (slice (remove line '\n') 8 81) = sec := by
      rw [slice_nonneg _ (by omega) (by omega)]
      exact stripped_iff.1 hsec
    refine ⟨_, by rw [hs], ?_⟩
    rcases h8 with ⟨hb, rfl⟩ | ⟨hne, hs8⟩
    · unfold val
      rw [entry_none.2 hb]
      rfl
    · unfold val
      rw [entry_some.2 ⟨stripped_iff.1 hs8, hne⟩]
      rfl
  · rw [logOf_none hn, secFold_file hf hp]
    exact ⟨_, rfl, rfl⟩

theorem pagesInfo_eq (fs : FileSystem) (fuel : Nat) (lines : List Str) :
    pagesInfo fs fuel lines = lines.foldlM pagesStep ⟨(logOf lines).1, (logOf lines).2, none⟩ := by
  obtain ⟨d, hd, h1, h2⟩ := deck_log fs fuel lines
  unfold pagesInfo
  rw [hd, py_bind_ok, h1, h2]

theorem pagesInfo_ok (fs : FileSystem) (fuel : Nat) {lines : List Str} {sec c8 : Str}
    (h : LogName lines sec c8) {p : Option (Int × Int)} (hp : lines.foldlM pgStep none = .ok p) :
    ∃ v, pagesInfo fs fuel lines = .ok ⟨some sec, v, p⟩ ∧ RVal.toStr v = c8 := by
  obtain ⟨v, hv, h8⟩ := secFold_log h
  exact ⟨v, by rw [pagesInfo_eq]; exact fold_split hv hp, h8⟩

theorem padLeft_rightIn (w : Nat) (s : Str) : RightIn w s (padLeft ' ' w s) := by
  refine ⟨w - s.length, rfl, fun h => ?_, fun h => by omega⟩
  simp [padLeft]; omega

theorem pageLines_block (v : RVal) (sec : Str) (a k : Nat) :
    PageBlock sec v.toStr (a + k) (k + 1) (pageLines v sec a ((a : Int) + k)).flatten := by
  refine ⟨_, _, padRight_leftIn 72 sec, padLeft_rightIn 4 _, ?_⟩
  unfold pageLines
  have e1 : pyStr ((a : Int) + k) = numeral 10 (a + k) := by
    rw [← pyStr_nat]; congr 1
  have e2 : pyStr ((a : Int) + k - a + 1) = numeral 10 (k + 1) := by
    rw [← pyStr_nat]; congr 1; push_cast; ring
  rw [e1, e2]
  simp

end H800
