import Verif.Lemmas.GenPages

/-!
Properties C86, C95, C96 and C97: genpages.
-/

namespace H800

open Spec

/-- The lines of the example. -/
def pagesText : Str := py "# Filename: A_B.arg\n# Pages: 7-8\nL      @TEST\n        X          TN\n"

/-- A file system with the example. -/
def pagesFs : FileSystem := fun f => if f = py "A.arg" then some pagesText else none

theorem pagesText_log : LogName (readlines pagesText) (py "TEST") (py "@") := by
  refine Or.inl ⟨py "L      @TEST\n", ⟨[py "# Filename: A_B.arg\n", py "# Pages: 7-8\n"],
    [py "        X          TN\n"], by decide, by decide, by decide⟩, ?_, Or.inr ⟨by decide, ?_⟩⟩
  · exact stripped_iff.2 (by decide)
  · exact stripped_iff.2 (by decide)

theorem pagesText_pages : PagesAre (readlines pagesText) 7 8 := by
  refine ⟨[py "# Filename: A_B.arg\n"], py "# Pages: 7-8\n",
    [py "L      @TEST\n", py "        X          TN\n"], by decide, ?_, ?_, ?_⟩
  · refine ⟨py "7-8\n", py "7-8", rfl, ⟨by decide, by decide, [], py "\n", blank_nil, rfl, by decide⟩,
      Or.inl ⟨py "7", py "8", ⟨by decide, by decide, by decide⟩, ⟨by decide, by decide, by decide⟩,
        rfl⟩⟩
  · intro l hl hb
    have := hasPrefix_begins.2 hb
    revert this
    simp only [List.mem_cons, List.not_mem_nil, or_false] at hl
    rcases hl with rfl | rfl <;> decide
  · intro l hl hb
    have := hasPrefix_begins.2 hb
    revert this
    rw [List.mem_singleton.1 hl]
    exact fun e => absurd e (by decide)

theorem flatten_flatMap {α : Type} (l : List α) (f : α → List Str) :
    (l.flatMap f).flatten = (l.map fun x => (f x).flatten).flatten := by
  induction l with
  | nil => rfl
  | cons x l ih => simp [List.flatMap_cons, ih]

/-- C86: genpages keeps the text of the file and appends the log card and a block for each page of
the range, with user page numbers from 1; no other file changes. -/
theorem C86_pages (fs : FileSystem) (fuel : Nat) (file text : Str) (args : List Str)
    (hf : fs file = some text) (sec c8 : Str) (hlog : LogName (readlines text) sec c8)
    (a b : Nat) (hp : PagesAre (readlines text) a b) (hab : a ≤ b) :
    ∃ (fs' : FileSystem) (blocks : List Str), genpages fs fuel (file :: args) = (fs', .ok ()) ∧
      fs' file = some (text ++ py "\nL      " ++ c8 ++ sec ++ py "\n" ++ blocks.flatten) ∧
      (∀ g, g ≠ file → fs' g = fs g) ∧ blocks.length = b + 1 - a ∧
      ∀ k t, blocks[k]? = some t → PageBlock sec c8 (a + k) (k + 1) t := by
  obtain ⟨v, hv, rfl⟩ := pagesInfo_ok fs fuel hlog (pgFold_are hp none)
  refine ⟨writeFile fs file (text ++ (pagesLines v sec a b).flatten), (List.range (b + 1 - a)).map
    (fun k : Nat => (pageLines v sec a ((a : Int) + k)).flatten), ?_⟩
  unfold genpages
  simp only [hf, hv]
  rw [if_neg (by omega)]
  refine ⟨rfl, ?_, fun g hg => by simp [writeFile, hg], by simp, ?_⟩
  · have hr : pyRange (a : Int) ((b : Int) + 1) =
        (List.range (b + 1 - a)).map fun k : Nat => (a : Int) + k := by
      unfold pyRange
      rw [show ((b : Int) + 1 - a).toNat = b + 1 - a by omega]
    simp only [writeFile, if_true, pagesLines, hr, List.flatten_append, flatten_flatMap, List.map_map]
    simp [Function.comp_def]
  · intro k t hk
    rw [List.getElem?_map] at hk
    obtain ⟨x, hx, rfl⟩ := Option.map_eq_some_iff.1 hk
    have := List.getElem?_eq_some_iff.1 hx
    obtain ⟨_, rfl⟩ := this
    rw [List.getElem_range]
    exact pageLines_block v sec a k

example : LogName (readlines pagesText) (py "TEST") (py "@") ∧ PagesAre (readlines pagesText) 7 8 :=
  ⟨pagesText_log, pagesText_pages⟩

/-! ### C96, C97: failures -/

/-- C96: if genpages fails, all files are as before. -/
theorem C96_unchanged (fs fs' : FileSystem) (fuel : Nat) (args : List Str) (e : PyErr)
    (h : genpages fs fuel args = (fs', .error e)) : fs' = fs := by
  unfold genpages at h
  split at h
  · cases h; rfl
  · split at h
    · cases h; rfl
    · split at h
      · cases h; rfl
      · split at h
        · cases h; rfl
        · split at h
          · cases h; rfl
          · split at h
            · cases h; rfl
            · cases h

/-- C97, in full: whenever genpages fails it exits with a message. -/
def C97_statement : Prop := ∀ (fs fs' : FileSystem) (fuel : Nat) (args : List Str) (e : PyErr),
  genpages fs fuel args = (fs', .error e) → e = .systemExit

/-- C97 is false: without a page comment the page range is not bound. -/
theorem C97_refuted : ¬ C97_statement := by
  intro h
  let fs : FileSystem := fun f => if f = py "A" then some (py "L      @TEST\n") else none
  have : genpages fs 10 [py "A"] = (fs, .error .unboundLocal) := rfl
  exact absurd (h _ _ _ _ _ this) (by decide)

/-- C97, what holds: the script exits with a message if there is no argument, no such file, no log
section, or if the range is reversed; without a page comment the error is UnboundLocalError. -/
theorem C97_exact_partial (fs : FileSystem) (fuel : Nat) (file text : Str) (args : List Str) :
    genpages fs fuel [] = (fs, .error .systemExit) ∧
    (fs file = none → genpages fs fuel (file :: args) = (fs, .error .systemExit)) ∧
    (fs file = some text →
      ((∀ l ∈ readlines text, l.head? ≠ some 'L' ∧ ¬ Begins (py "# Filename: ") l ∧
          (Begins (py "# Pages: ") l → ∃ a b, PageSpan l a b)) →
        genpages fs fuel (file :: args) = (fs, .error .systemExit)) ∧
      ∀ sec c8, LogName (readlines text) sec c8 →
        (∀ a b, PagesAre (readlines text) a b → b < a →
          genpages fs fuel (file :: args) = (fs, .error .systemExit)) ∧
        ((∀ l ∈ readlines text, ¬ Begins (py "# Pages: ") l) →
          genpages fs fuel (file :: args) = (fs, .error .unboundLocal))) := by
  refine ⟨rfl, fun hf => ?_, fun hf => ⟨fun h => ?_, fun sec c8 hlog => ⟨fun a b hp hab => ?_, fun h => ?_⟩⟩⟩
  · unfold genpages; simp only [hf]
  · obtain ⟨p, hp⟩ := pgFold_spans (fun l hl => (h l hl).2.2) none
    have hl := logOf_none fun l hl => (h l hl).1
    have hs := secFold_none (fun l hl => (h l hl).2.1) (logOf (readlines text)).2
    have : pagesInfo fs fuel (readlines text) = .ok ⟨none, (logOf (readlines text)).2, p⟩ := by
      rw [pagesInfo_eq]
      have := fold_split hs hp
      rw [hl] at this ⊢
      exact this
    unfold genpages; simp only [hf, this]
  · obtain ⟨v, hv, rfl⟩ := pagesInfo_ok fs fuel hlog (pgFold_are hp none)
    unfold genpages; simp only [hf, hv]
    rw [if_pos (by omega)]
  · obtain ⟨v, hv, rfl⟩ := pagesInfo_ok fs fuel hlog (pgFold_none h none)
    unfold genpages; simp only [hf, hv]

/-! ### C95: the log card appended -/

/-- C95, in full: the log card appended to a file with a log section names the same log section and
has the same column 8. -/
def C95_statement : Prop := ∀ (fs fs' : FileSystem) (fuel : Nat) (file text : Str) (d : ArgusDeck),
  fs file = some text → genpages fs fuel [file] = (fs', .ok ()) →
  ArgusDeck.init fs fuel (some (readlines text)) none DEFAULT_WIDTH DEFAULT_FIELDS argusClass = .ok d →
  d.logSection ≠ none →
  ∃ card rest d', fs' file = some (text ++ '\n' :: card ++ '\n' :: rest) ∧ '\n' ∉ card ∧
    ArgusDeck.init fs fuel (some [card]) none DEFAULT_WIDTH DEFAULT_FIELDS argusClass = .ok d' ∧
    d'.logSection = d.logSection ∧ d'.logSectionCol8 = d.logSectionCol8

theorem first_line {p q r s : Str} (hp : '\n' ∉ p) (hq : '\n' ∉ q)
    (h : p ++ '\n' :: r = q ++ '\n' :: s) : p = q := by
  induction p generalizing q with
  | nil =>
    cases q with
    | nil => rfl
    | cons c q => simp at h; rw [← h.1] at hq; simp at hq
  | cons c p ih =>
    cases q with
    | nil => simp at h; rw [h.1] at hp; simp at hp
    | cons d q =>
      simp only [List.cons_append, List.cons.injEq] at h
      rw [h.1, ih (fun e => hp (List.mem_cons_of_mem _ e)) (fun e => hq (List.mem_cons_of_mem _ e)) h.2]

/-- C95 is false: if column 8 of the log card is blank, "None" is put there. -/
theorem C95_refuted : ¬ C95_statement := by
  intro h
  let text : Str := py "L       AB\n# Pages: 1\n"
  let fs : FileSystem := fun f => if f = py "A" then some text else none
  have hg : genpages fs 10 [py "A"] = ((genpages fs 10 [py "A"]).1, .ok ()) := rfl
  obtain ⟨d, hd, hd1, -⟩ := deck_log fs 10 (readlines text)
  have hl : logOf (readlines text) = (some (py "AB"), .none) := by decide
  obtain ⟨card, rest, d', h1, h2, h3, h4, -⟩ := h fs _ 10 (py "A") text d rfl hg hd (by
    rw [hd1, hl]; simp)
  have h0 : ∃ r, (genpages fs 10 [py "A"]).1 (py "A") =
      some (text ++ '\n' :: py "L      NoneAB" ++ '\n' :: r) := ⟨_, rfl⟩
  obtain ⟨r, h0⟩ := h0
  rw [h0] at h1
  have h1 := Option.some.inj h1
  rw [List.append_assoc, List.append_assoc] at h1
  have h1 := List.append_cancel_left h1
  simp only [List.cons_append, List.cons.injEq, true_and] at h1
  obtain rfl : py "L      NoneAB" = card := first_line (by decide) h2 (by simpa using h1)
  obtain ⟨d2, hd2, hl2, -⟩ := deck_log fs 10 [py "L      NoneAB"]
  have : d2 = d' := Except.ok.inj (hd2.symm.trans h3)
  subst this
  rw [hl2, hd1, hl] at h4
  revert h4
  decide

/-- Reading back an appended log card. -/
theorem read_log (fs : FileSystem) (fuel : Nat) (c : Char) (sec : Str) (hc : isSpace c = false)
    (hn : '\n' ∉ sec) :
    ∃ d, ArgusDeck.init fs fuel (some [py "L      " ++ c :: sec]) none DEFAULT_WIDTH DEFAULT_FIELDS
      argusClass = .ok d ∧ d.logSection = some (strip (sec.take 73)) ∧
      d.logSectionCol8 = .str [c] := by
  obtain ⟨d, hd, h1, h2⟩ := deck_log fs fuel [py "L      " ++ c :: sec]
  refine ⟨d, hd, ?_, ?_⟩
  · rw [h1, logOf, if_pos (by rfl)]
    simp only
    have hcn : c ≠ '\n' := by rintro rfl; exact absurd hc (by decide)
    have : remove (py "L      " ++ c :: sec) '\n' = py "L      " ++ c :: sec := by
      unfold remove
      rw [List.filter_eq_self]
      intro x hx
      simp only [List.mem_append, List.mem_cons] at hx
      simp only [ne_eq, decide_not, Bool.not_eq_eq_eq_not, Bool.not_true, decide_eq_false_iff_not]
      rintro rfl
      simp [hn, hcn.symm] at hx
    rw [this, slice_nonneg _ (by omega) (by omega)]
    rfl
  · rw [h2, logOf, if_pos (by rfl)]
    simp only
    have : columns (py "L      " ++ c :: sec) 8 9 = [c] := rfl
    rw [this]
    unfold val PunchCard.entry
    rw [strip_trimmed (s := [c]) (by simp [Trimmed, hc]), if_neg (by simp)]
    rfl

/-- C95, what holds: if column 8 of the log card is not blank, the log card appended has the same
log section and column 8. -/
theorem C95_nonblank_partial (fs : FileSystem) (fuel : Nat) (file text : Str) (d : ArgusDeck)
    (line : Str) (hf : fs file = some text)
    (hd : ArgusDeck.init fs fuel (some (readlines text)) none DEFAULT_WIDTH DEFAULT_FIELDS
      argusClass = .ok d)
    (hl : LogCard (readlines text) line) (h8 : ¬ Blank (columns line 8 9))
    (a b : Nat) (hp : PagesAre (readlines text) a b) (hab : a ≤ b) :
    ∃ fs' card rest d', genpages fs fuel [file] = (fs', .ok ()) ∧
      fs' file = some (text ++ '\n' :: card ++ '\n' :: rest) ∧ '\n' ∉ card ∧
      ArgusDeck.init fs fuel (some [card]) none DEFAULT_WIDTH DEFAULT_FIELDS argusClass = .ok d' ∧
      d'.logSection ≠ none ∧
      d'.logSection = d.logSection ∧ d'.logSectionCol8 = d.logSectionCol8 := by
  obtain ⟨d2, hd2, h1, h2⟩ := deck_log fs fuel (readlines text)
  obtain rfl : d2 = d := Except.ok.inj (hd2.symm.trans hd)
  rw [logOf_card hl] at h1 h2
  simp only at h1 h2
  set sec := strip (slice (remove line '\n') 8 81) with hsec
  obtain ⟨c, hc, hcol⟩ : ∃ c, isSpace c = false ∧ columns line 8 9 = [c] := by
    have hlen : (columns line 8 9).length ≤ 1 := by simp [columns]
    match hx : columns line 8 9, hlen with
    | [], _ => exact absurd (by rw [hx]; exact blank_nil) h8
    | [c], _ =>
      refine ⟨c, ?_, rfl⟩
      by_contra hs
      exact h8 (by rw [hx]; intro x hm; rw [List.mem_singleton.1 hm]; simpa using hs)
  have hst : Stripped (columns (line.filter (· ≠ '\n')) 9 82) sec := by
    rw [hsec, slice_nonneg _ (by omega) (by omega)]
    exact strip_stripped _
  have hlog : LogName (readlines text) sec [c] := by
    refine Or.inl ⟨line, hl, hst, Or.inr ⟨by simp, ?_⟩⟩
    rw [hcol]
    exact ⟨by simp [Trimmed, hc], [], [], blank_nil, blank_nil, rfl⟩
  obtain ⟨fs', blocks, g1, g2, -⟩ := C86_pages fs fuel file text [] hf sec [c] hlog a b hp hab
  have hsub : ∀ x ∈ sec, x ∈ columns (line.filter (· ≠ '\n')) 9 82 := by
    obtain ⟨-, u, w, -, -, e⟩ := hst
    intro x hx; rw [e]; simp [hx]
  have hnl : '\n' ∉ sec := by
    intro hm
    have := List.mem_of_mem_drop (List.mem_of_mem_take (hsub _ hm))
    simp at this
  have hlen : sec.length ≤ 73 := by
    obtain ⟨-, u, w, -, -, e⟩ := hst
    have h1 : (columns (line.filter (· ≠ '\n')) 9 82).length ≤ 73 := by
      simp only [columns, List.length_take]; omega
    rw [e] at h1
    simp only [List.length_append] at h1
    omega
  obtain ⟨d', k1, k2, k3⟩ := read_log fs fuel c sec hc hnl
  refine ⟨fs', py "L      " ++ c :: sec, blocks.flatten, d', g1, ?_, ?_, k1, by rw [k2]; simp, ?_, ?_⟩
  · rw [g2]; simp
  · intro hm
    rcases List.mem_append.1 hm with hm | hm
    · revert hm; decide
    · rcases List.mem_cons.1 hm with rfl | hm
      · exact absurd hc (by decide)
      · exact hnl hm
  · rw [k2, h1, List.take_of_length_le hlen]
    rw [hsec, strip_strip]
  · rw [k3, h2, hcol]
    unfold val PunchCard.entry
    rw [strip_trimmed (s := [c]) (by simp [Trimmed, hc]), if_neg (by simp)]
    rfl

example : LogCard (readlines pagesText) (py "L      @TEST\n") ∧
    ¬ Blank (columns (py "L      @TEST\n") 8 9) := by
  refine ⟨⟨[py "# Filename: A_B.arg\n", py "# Pages: 7-8\n"], [py "        X          TN\n"],
    by decide, by decide, by decide⟩, ?_⟩
  intro h
  exact absurd (h '@' (by decide)) (by decide)

/-- C95: without log card the section read back is the one made from the file name, if it is not
too long and does not begin or end with an underscore. -/
theorem C95_filename_partial (fs : FileSystem) (fuel : Nat) (file text : Str)
    (name p : Str) (hf : fs file = some text) (hno : ∀ l ∈ readlines text, l.head? ≠ some 'L')
    (hname : FileComment (readlines text) name) (hbf : BeforeFirst '.' name p) (hlen : p.length ≤ 73)
    (hb : p.head? ≠ some '_') (he : p.getLast? ≠ some '_')
    (a b : Nat) (hp : PagesAre (readlines text) a b) (hab : a ≤ b) :
    ∃ fs' card rest d', genpages fs fuel [file] = (fs', .ok ()) ∧
      fs' file = some (text ++ '\n' :: card ++ '\n' :: rest) ∧ '\n' ∉ card ∧
      ArgusDeck.init fs fuel (some [card]) none DEFAULT_WIDTH DEFAULT_FIELDS argusClass = .ok d' ∧
      d'.logSection = some (p.map fun c => if c = '_' then ' ' else c) ∧
      d'.logSectionCol8 = .str (py "@") := by
  set sec := p.map fun c => if c = '_' then ' ' else c with hsec
  obtain ⟨fs', blocks, g1, g2, -⟩ := C86_pages fs fuel file text [] hf sec (py "@")
    (Or.inr ⟨hno, rfl, name, p, hname, hbf, hsec⟩) a b hp hab
  have hsp : ∀ c ∈ p, isSpace c = false := by
    obtain ⟨_, _, _, _, _, hw⟩ := hname
    intro c hc
    apply hw.2.1 c
    rcases hbf.2 with rfl | ⟨r, rfl⟩
    · exact hc
    · simp [hc]
  have hnl : '\n' ∉ sec := by
    intro hm
    obtain ⟨c, hc, e⟩ := List.mem_map.1 hm
    split at e
    · exact absurd e (by decide)
    · rw [e] at hc; exact absurd (hsp _ hc) (by decide)
  have htr : Trimmed sec := by
    constructor
    · intro c hc
      rw [hsec, List.head?_map] at hc
      obtain ⟨x, hx, rfl⟩ := Option.map_eq_some_iff.1 hc
      rw [if_neg (by rintro rfl; exact hb hx)]
      exact hsp x (List.mem_of_mem_head? hx)
    · intro c hc
      rw [hsec, List.getLast?_map] at hc
      obtain ⟨x, hx, rfl⟩ := Option.map_eq_some_iff.1 hc
      rw [if_neg (by rintro rfl; exact he hx)]
      exact hsp x (List.mem_of_mem_getLast? hx)
  obtain ⟨d', k1, k2, k3⟩ := read_log fs fuel '@' sec (by decide) hnl
  refine ⟨fs', py "L      " ++ '@' :: sec, blocks.flatten, d', g1, ?_, ?_, k1, ?_, k3⟩
  · rw [g2]; simp
  · intro hm
    rcases List.mem_append.1 hm with hm | hm
    · revert hm; decide
    · rcases List.mem_cons.1 hm with h | hm
      · exact absurd h (by decide)
      · exact hnl hm
  · rw [k2, List.take_of_length_le (by rw [hsec, List.length_map]; exact hlen), strip_trimmed htr]

example : FileComment (readlines (py "# Filename: A_B.arg\n")) (py "A_B.arg") ∧
    BeforeFirst '.' (py "A_B.arg") (py "A_B") := by
  refine ⟨⟨[], [], py "A_B.arg\n", by decide, by simp, by decide, by decide, [], py "\n", blank_nil,
    rfl, by decide⟩, by decide, Or.inr ⟨py "arg", rfl⟩⟩

end H800
