import Verif.Lemmas.Decks

/-!
Properties C56-C61: decks of cards.
-/

namespace H800

open Spec

/-- C56: a deck of lines has one card per line that is not a comment, in order, made from that line
and its position; its text and line number are those of the line. -/
theorem C56_lines (fs : FileSystem) (fuel : Nat) (cls : CardClass)
    (hcls : cls = argusClass ∨ cls = punchClass) (file : Option Str)
    (hfile : file = none ∨ file = some []) (lines : List Str) :
    ∃ d, Deck.init fs fuel (some lines) file DEFAULT_WIDTH DEFAULT_FIELDS cls = .ok d ∧
      d.lines = lines ∧
      (numbered lines).mapM (fun p => cls p.1 DEFAULT_WIDTH DEFAULT_FIELDS file p.2) =
        .ok d.cards ∧
      d.cards.map (fun c => (c.line, c.linenum)) =
        (numbered lines).map (fun p => (p.1.filter (· ≠ '\n'), (p.2 : Int))) ∧
      d.cards.mapM PunchCard.record = .ok d.records := by
  have hnum : ∀ p ∈ numbered lines, p.1.head? ≠ some '#' := by
    intro p hp
    have := List.of_mem_filter hp
    simpa using this
  have hfl := fromLines_eq (cls := cls) (width := DEFAULT_WIDTH) (fields := DEFAULT_FIELDS) file 0
    lines
  change _ = (numbered lines).mapM _ at hfl
  generalize numbered lines = N at *
  obtain ⟨cards, hcards, hkeep, hbody⟩ : ∃ cards,
      N.mapM (fun p => cls p.1 DEFAULT_WIDTH DEFAULT_FIELDS file p.2) = .ok cards ∧
      cards.map (fun c => (c.line, c.linenum)) =
        N.map (fun p => (p.1.filter (· ≠ '\n'), (p.2 : Int))) ∧
      ∀ c ∈ cards, ∃ b, c.body = some b := by
    clear hfl
    induction N with
    | nil => exact ⟨[], rfl, rfl, by simp⟩
    | cons p N ih =>
      obtain ⟨cs, h1, h2, h3⟩ := ih fun q hq => hnum q (List.mem_cons_of_mem _ hq)
      have hp := hnum p List.mem_cons_self
      obtain ⟨c, hc⟩ := total_of hcls p.1 file p.2 hp
      obtain ⟨k1, k2, k3, k4⟩ := card_keeps hcls hp hc
      refine ⟨c :: cs, mapM_cons_ok.2 ⟨c, cs, hc, h1, rfl⟩, ?_, ?_⟩
      · rw [List.map_cons, List.map_cons, h2, k1, k3]
      · intro x hx
        rcases List.mem_cons.1 hx with rfl | hx
        · exact k4
        · exact h3 x hx
  obtain ⟨bs, hbs, hcol⟩ := collect_ok (lines := lines) hbody
  have hinit : Deck.init fs fuel (some lines) file DEFAULT_WIDTH DEFAULT_FIELDS cls = .ok
      ⟨lines, cards, bs.map (·.fields), bs.map (·.stripped), bs.map (·.record)⟩ := by
    rw [hcards] at hfl
    rcases hfile with rfl | rfl <;> (unfold Deck.init; simp only [hfl, py_bind_ok]; exact hcol)
  refine ⟨_, hinit, rfl, hcards, hkeep, ?_⟩
  show cards.mapM PunchCard.record = .ok (bs.map (·.record))
  clear hcards hkeep hbody hcol hinit hfl
  induction cards generalizing bs with
  | nil => rw [mapM_nil_ok.1 hbs]; rfl
  | cons c cs ih =>
    obtain ⟨b, bs', h1, h2, rfl⟩ := mapM_cons_ok.1 hbs
    refine mapM_cons_ok.2 ⟨b.record, bs'.map (·.record), ?_, ih _ h2, rfl⟩
    unfold PunchCard.record
    rw [h1]; rfl

/-- Line numbers count the comments. -/
example : numbered [py "# Page 1", py " 0030   X", py "# Page 2", py " 0031   Y"] =
    [(py " 0030   X", 2), (py " 0031   Y", 4)] := by decide

/-- C57: the cards of a file deck are made, in order, from the source lines the file expands to; any
card class and layout. -/
theorem C57_expansion (fs : FileSystem) (fuel : Nat) (cls : CardClass) (width : Int)
    (fields : List Int) (lines : Option (List Str)) (file : Str) (hf : file ≠ []) (d : Deck)
    (h : Deck.init fs fuel lines (some file) width fields cls = .ok d) :
    ∃ out, Expands fs file out ∧
      out.mapM (fun s => cls s.text width fields (some s.file) s.num) = .ok d.cards := by
  cases file with
  | nil => exact absurd rfl hf
  | cons c cs =>
    unfold Deck.init at h
    simp only at h
    cases hr : Deck.readSource fs cls width fields fuel true (c :: cs) with
    | error e => rw [hr] at h; cases lines <;> cases h
    | ok cards =>
      rw [hr] at h
      obtain ⟨out, h1, h2⟩ := readSource_sound hr
      refine ⟨out, h1, ?_⟩
      have : Deck.collect (cards.map (·.line)) cards = .ok d := by cases lines <;> exact h
      rw [(collect_cards this).2.1]
      exact h2

/-- C57: a file that expands makes a deck, whatever the recursion limit beyond some depth; each card
has the file, line number and text of its source line. -/
theorem C57_complete (fs : FileSystem) (cls : CardClass)
    (hcls : cls = argusClass ∨ cls = punchClass) (lines : Option (List Str)) (file : Str)
    (hf : file ≠ []) (out : List Src) (h : Expands fs file out) :
    ∃ n d, (∀ m, n ≤ m →
        Deck.init fs m lines (some file) DEFAULT_WIDTH DEFAULT_FIELDS cls = .ok d) ∧
      d.cards.map (fun c => (c.filename, c.linenum, c.line)) =
        out.map (fun s => (some s.file, (s.num : Int), s.text.filter (· ≠ '\n'))) := by
  have hsrc := expands_src h
  have hne : ∀ s ∈ out, s.text.head? ≠ some '#' := by
    intro s hs
    obtain ⟨_, _, _, _, h1, _⟩ := hsrc s hs
    exact h1
  obtain ⟨cards, hcards⟩ := srcs_total (total_of hcls) hne
  obtain ⟨n, hn⟩ := readSource_complete h hcards
  have hk : cards.map (fun c => (c.filename, c.linenum, c.line)) =
      out.map (fun s => (some s.file, (s.num : Int), s.text.filter (· ≠ '\n'))) ∧
      ∀ c ∈ cards, ∃ b, c.body = some b := by
    clear hn hsrc h
    induction out generalizing cards with
    | nil => rw [mapM_nil_ok.1 hcards]; exact ⟨rfl, by simp⟩
    | cons s out ih =>
      obtain ⟨c, cs, h1, h2, rfl⟩ := mapM_cons_ok.1 hcards
      obtain ⟨k1, k2, k3, k4⟩ := card_keeps hcls (hne s List.mem_cons_self) h1
      obtain ⟨i1, i2⟩ := ih (fun x hx => hne x (List.mem_cons_of_mem _ hx)) cs h2
      refine ⟨?_, ?_⟩
      · rw [List.map_cons, List.map_cons, i1, k1, k2, k3]
      · intro x hx
        rcases List.mem_cons.1 hx with rfl | hx
        · exact k4
        · exact i2 x hx
  obtain ⟨bs, -, hcol⟩ := collect_ok (lines := cards.map (·.line)) hk.2
  refine ⟨n, ⟨cards.map (·.line), cards, bs.map (·.fields), bs.map (·.stripped),
    bs.map (·.record)⟩, fun m hm => ?_, hk.1⟩
  cases file with
  | nil => exact absurd rfl hf
  | cons c cs =>
    unfold Deck.init
    simp only
    cases lines <;> (rw [hn m hm]; exact hcol)

/-- C57: a file has at most one expansion. -/
theorem C57_unique (fs : FileSystem) (file : Str) (out out' : List Src) (h : Expands fs file out)
    (h' : Expands fs file out') : out = out' := by
  obtain ⟨t, hf, h⟩ := h
  obtain ⟨t', hf', h'⟩ := h'
  rw [hf] at hf'
  cases hf'
  exact expand_unique h _ h'

/-- C57: the recursion limit matters only when it is exceeded. -/
theorem C57_limit (fs : FileSystem) (cls : CardClass) (width : Int) (fields : List Int)
    (n m : Nat) (hnm : n ≤ m) (file : Str)
    (h : Deck.readSource fs cls width fields n true file ≠ .error .recursionError) :
    Deck.readSource fs cls width fields m true file =
      Deck.readSource fs cls width fields n true file := readSource_mono hnm h

/-- C57: reading fails only on exceeding the recursion limit, with an error report when a file that
is reached does not exist, or with an IndexError when a `$` line names no file. -/
theorem C57_errors (fs : FileSystem) (cls : CardClass)
    (hcls : cls = argusClass ∨ cls = punchClass) (fuel : Nat) (file : Str) (e : PyErr)
    (h : Deck.readSource fs cls DEFAULT_WIDTH DEFAULT_FIELDS fuel true file = .error e) :
    e = .recursionError ∨
    (e = .systemExit ∧ ∃ g, Relation.ReflTransGen (Includes fs) file g ∧ fs g = none) ∨
    (e = .indexError ∧ ∃ g text t, Relation.ReflTransGen (Includes fs) file g ∧
      fs g = some text ∧ '$' :: t ∈ readlines text ∧ Blank t) :=
  readSource_error (total_of hcls) h

/-- Two files, the first including the second between two lines. -/
def exampleFs : FileSystem := fun name =>
  if name = py "A" then some (py "# c\n X\n$B rest\n Y")
  else if name = py "B" then some (py " Z\n") else none

/-- The expansion of the example, and the deck it makes. -/
example : Expands exampleFs (py "A")
    [⟨py "A", 2, py " X\n"⟩, ⟨py "B", 1, py " Z\n"⟩, ⟨py "A", 4, py " Y"⟩] := by
  refine ⟨_, rfl, .comment (.plain (by decide) (by decide) (.incl (name := py "B")
    (inner := [⟨py "B", 1, py " Z\n"⟩]) (firstWord_ok.1 rfl) rfl ?_ ?_))⟩
  · exact .plain (by decide) (by decide) (.nil _ _)
  · exact .plain (by decide) (by decide) (.nil _ _)

/-- C58: reading a file that includes itself, directly or not, ends with an error report. -/
def C58_statement : Prop :=
  ∀ (fs : FileSystem) (file : Str), file ≠ [] → Relation.TransGen (Includes fs) file file →
    ∃ n, ∀ m, n ≤ m → Deck.init fs m none (some file) DEFAULT_WIDTH DEFAULT_FIELDS argusClass =
      .error .systemExit

/-- A file including itself. -/
def selfFs : FileSystem := fun name => if name = py "A" then some (py "$A\n") else none

theorem selfFs_read (m : Nat) :
    Deck.readSource selfFs argusClass DEFAULT_WIDTH DEFAULT_FIELDS m true (py "A") =
      .error .recursionError := by
  induction m with
  | zero => rfl
  | succ m ih =>
    rw [Deck.readSource]
    have : selfFs (py "A") = some (py "$A\n") := rfl
    rw [this]
    simp only
    have hl : readlines (py "$A\n") = ['$' :: py "A\n"] := rfl
    rw [hl, readLoop_include]
    have hw : firstWord (py "A\n") = .ok (py "A") := rfl
    rw [hw]
    simp only [py_bind_ok, this, Option.isNone_some, Bool.false_eq_true, if_false, ih]
    rfl

theorem selfFs_cycle : Relation.TransGen (Includes selfFs) (py "A") (py "A") :=
  .single ⟨py "$A\n", rfl, py "A\n", by simp [readlines], firstWord_ok.1 rfl⟩

/-- C58 fails: a file including itself exhausts the recursion limit, whatever it is. -/
theorem C58_refuted : ¬ C58_statement := by
  intro h
  obtain ⟨n, hn⟩ := h selfFs (py "A") (by decide) selfFs_cycle
  have := hn n (le_refl n)
  unfold Deck.init at this
  simp only [selfFs_read] at this
  cases this

/-- C58, the part that holds: a file that reaches a cyclic include never makes a deck, whatever the
card class, layout and recursion limit; for the two card classes the error is RecursionError if all
files exist and all `$` lines name a file. -/
theorem C58_never_a_deck_partial (fs : FileSystem) (file g : Str)
    (hr : Relation.ReflTransGen (Includes fs) file g) (hc : Relation.TransGen (Includes fs) g g)
    (fuel : Nat) :
    (∀ cls width fields cards,
      Deck.readSource fs cls width fields fuel true file ≠ .ok cards) ∧
    (∀ cls, (cls = argusClass ∨ cls = punchClass) →
      (∀ x, Relation.ReflTransGen (Includes fs) file x → ∃ text, fs x = some text ∧
        ∀ t, '$' :: t ∈ readlines text → ¬ Blank t) →
      Deck.readSource fs cls DEFAULT_WIDTH DEFAULT_FIELDS fuel true file =
        .error .recursionError) := by
  have never : ∀ cls width fields cards,
      Deck.readSource fs cls width fields fuel true file ≠ .ok cards := by
    intro cls width fields cards h
    rcases Relation.reflTransGen_iff_eq_or_transGen.1 hr with e | ht
    · subst e; exact readSource_cycle hc fuel cards h
    · obtain ⟨k, cs, -, hcs⟩ := readSource_trans ht h
      exact readSource_cycle hc k cs hcs
  refine ⟨never, fun cls hcls hall => ?_⟩
  cases h : Deck.readSource fs cls DEFAULT_WIDTH DEFAULT_FIELDS fuel true file with
  | ok cards => exact absurd h (never cls _ _ cards)
  | error e =>
    rcases C57_errors fs cls hcls fuel file e h with rfl | ⟨-, x, hx, hn⟩ | ⟨-, x, text, t, hx, h1, h2, h3⟩
    · rfl
    · obtain ⟨text, ht, -⟩ := hall x hx
      rw [hn] at ht; cases ht
    · obtain ⟨text', ht, hb⟩ := hall x hx
      rw [h1] at ht; cases ht
      exact absurd h3 (hb t h2)

/-- C59: every card of a file deck points at its source line, which is neither a comment nor an
include. -/
theorem C59_provenance (fs : FileSystem) (fuel : Nat) (cls : CardClass)
    (hcls : cls = argusClass ∨ cls = punchClass) (lines : Option (List Str)) (file : Str)
    (hf : file ≠ []) (d : Deck)
    (h : Deck.init fs fuel lines (some file) DEFAULT_WIDTH DEFAULT_FIELDS cls = .ok d)
    (c : PunchCard) (hc : c ∈ d.cards) :
    ∃ (name text : Str) (k : Nat) (l : Str), c.filename = some name ∧ fs name = some text ∧ c.linenum = (k : Int) + 1 ∧
      (readlines text)[k]? = some l ∧ l.head? ≠ some '#' ∧ l.head? ≠ some '$' ∧
      c.line = l.filter (· ≠ '\n') := by
  obtain ⟨out, h1, h2⟩ := C57_expansion fs fuel cls _ _ lines file hf d h
  obtain ⟨s, hs, hmk⟩ := mapM_ok_mem h2 hc
  obtain ⟨text, t1, t2, t3, t4, t5⟩ := expands_src h1 s hs
  obtain ⟨k1, k2, k3, -⟩ := card_keeps hcls t4 hmk
  exact ⟨s.file, text, s.num - 1, s.text, k2, t1, by rw [k3]; omega, t3, t4, t5, k1⟩

/-- The hypotheses of C59 hold for the example files. -/
example : ∃ d, Deck.init exampleFs 5 none (some (py "A")) DEFAULT_WIDTH DEFAULT_FIELDS punchClass =
    .ok d ∧ d.cards.map (fun c => (c.filename, c.linenum, c.line)) =
      [(some (py "A"), 2, py " X"), (some (py "B"), 1, py " Z"), (some (py "A"), 4, py " Y")] :=
  ⟨_, rfl, rfl⟩

/-- C60: the log section is that of the first card with L in column 1, or there is none. -/
theorem C60_log_section (fs : FileSystem) (fuel : Nat) (lines : Option (List Str))
    (file : Option Str) (width : Int) (fields : List Int) (cls : CardClass) (d : ArgusDeck)
    (h : ArgusDeck.init fs fuel lines file width fields cls = .ok d) :
    (d.logSection = none ∧ d.logSectionCol8 = .none ∧
      ∀ c ∈ d.cards, Card.column1 c ≠ .ok (.str (py "L"))) ∨
    ∃ pre c post t, d.cards = pre ++ c :: post ∧
      (∀ p ∈ pre, Card.column1 p ≠ .ok (.str (py "L"))) ∧
      Card.column1 c = .ok (.str (py "L")) ∧ Stripped (columns c.line 9 82) t ∧
      d.logSection = some t ∧ Card.column8 c = .ok d.logSectionCol8 := by
  unfold ArgusDeck.init at h
  cases hd : Deck.init fs fuel lines file width fields cls with
  | error e => rw [hd] at h; cases h
  | ok d0 =>
    rw [hd] at h
    simp only [py_bind_ok] at h
    cases hl : ArgusDeck.findLog d0.cards with
    | error e => rw [hl] at h; cases h
    | ok l =>
      rw [hl] at h
      cases h
      simp only
      generalize d0.cards = cards at hl
      clear hd d0
      induction cards with
      | nil =>
        cases hl
        exact Or.inl ⟨rfl, rfl, by simp⟩
      | cons c cards ih =>
        rw [ArgusDeck.findLog] at hl
        cases hc1 : c.item (py "column1") with
        | error e => rw [hc1] at hl; cases hl
        | ok v =>
          rw [hc1] at hl
          simp only [py_bind_ok] at hl
          by_cases hv : v = .str (py "L")
          · rw [if_pos hv] at hl
            cases hc8 : c.item (py "column8") with
            | error e => rw [hc8] at hl; cases hl
            | ok w =>
              rw [hc8] at hl
              cases hl
              refine Or.inr ⟨[], c, cards, _, rfl, by simp, hv ▸ hc1, ?_, rfl, hc8⟩
              rw [stripped_iff, slice_nonneg _ (by decide) (by decide)]
              rfl
          · rw [if_neg hv] at hl
            have hne : Card.column1 c ≠ .ok (.str (py "L")) := by
              unfold Card.column1
              rw [hc1]
              intro e; cases e; exact hv rfl
            rcases ih hl with ⟨h1, h2, h3⟩ | ⟨pre, c', post, t, e, hp, hr⟩
            · refine Or.inl ⟨h1, h2, ?_⟩
              intro x hx
              rcases List.mem_cons.1 hx with rfl | hx
              · exact hne
              · exact h3 x hx
            · refine Or.inr ⟨c :: pre, c', post, t, by rw [e]; rfl, ?_, hr⟩
              intro x hx
              rcases List.mem_cons.1 hx with rfl | hx
              · exact hne
              · exact hp x hx

/-- C60: looking for the log section never fails on a deck of ARGUS cards of the default layout. -/
theorem C60_total (fs : FileSystem) (fuel : Nat) (lines : List Str) :
    ∃ d, ArgusDeck.init fs fuel (some lines) none DEFAULT_WIDTH DEFAULT_FIELDS argusClass =
      .ok d := by
  obtain ⟨d, hd, -, hc, -⟩ := C56_lines fs fuel argusClass (Or.inl rfl) none (Or.inl rfl) lines
  have hitems : ∀ c ∈ d.cards, ∃ v w, c.item (py "column1") = .ok v ∧
      c.item (py "column8") = .ok w := by
    intro c hm
    obtain ⟨p, hp, e⟩ := mapM_ok_mem hc hm
    have hh : p.1.head? ≠ some '#' := by
      have := List.of_mem_filter hp
      simpa using this
    rw [argus_eq _ hh] at e
    cases e
    exact ⟨_, _, (argus_items p.1 p.2).1, (argus_items p.1 p.2).2.2.1⟩
  have : ∃ l, ArgusDeck.findLog d.cards = .ok l := by
    generalize d.cards = cards at hitems
    induction cards with
    | nil => exact ⟨_, rfl⟩
    | cons c cs ih =>
      obtain ⟨v, w, hv, hw⟩ := hitems c List.mem_cons_self
      rw [ArgusDeck.findLog, hv]
      simp only [py_bind_ok]
      split
      · rw [hw]; exact ⟨_, rfl⟩
      · exact ih fun x hx => hitems x (List.mem_cons_of_mem _ hx)
  obtain ⟨l, hl⟩ := this
  unfold ArgusDeck.init
  rw [hd]
  simp only [py_bind_ok, hl]
  exact ⟨_, rfl⟩

/-- A deck with a log card. -/
example : ∃ d, ArgusDeck.init (fun _ => none) 0
    (some [py " 0010", py "L      @XYZ TESTING 123", py "L      #ABC"]) none DEFAULT_WIDTH
    DEFAULT_FIELDS argusClass = .ok d ∧ d.logSection = some (py "XYZ TESTING 123") ∧
    d.logSectionCol8 = .str (py "@") := ⟨_, rfl, rfl, rfl⟩

/-- C61: for a deck of newline-free lines, splitting its text at newlines gives the lines that are
not comments; without any, the text is empty. -/
theorem C61_str (fs : FileSystem) (fuel : Nat) (cls : CardClass)
    (hcls : cls = argusClass ∨ cls = punchClass) (lines : List Str)
    (hnl : ∀ l ∈ lines, '\n' ∉ l) :
    ∃ d, Deck.init fs fuel (some lines) none DEFAULT_WIDTH DEFAULT_FIELDS cls = .ok d ∧
      (lines.filter (fun l => l.head? ≠ some '#') ≠ [] →
        splitLines d.toStr = lines.filter (fun l => l.head? ≠ some '#')) ∧
      (lines.filter (fun l => l.head? ≠ some '#') = [] → d.toStr = []) := by
  obtain ⟨d, hd, -, -, hk, -⟩ := C56_lines fs fuel cls hcls none (Or.inl rfl) lines
  have hn : (numbered lines).map (·.1) = lines.filter (fun l => l.head? ≠ some '#') := by
    unfold numbered
    have : ((fun p : Str × Nat => decide (p.1.head? ≠ some '#'))) =
      (fun l : Str => decide (l.head? ≠ some '#')) ∘ Prod.fst := rfl
    rw [this, ← List.filter_map, List.zipIdx_map_fst]
  have hl : d.cards.map PunchCard.toStr = lines.filter (fun l => l.head? ≠ some '#') := by
    have e := congrArg (List.map Prod.fst) hk
    rw [List.map_map, List.map_map] at e
    refine Eq.trans e (Eq.trans ?_ hn)
    apply List.map_congr_left
    intro p hp
    have hp1 : p.1 ∈ lines := by
      have : p.1 ∈ (numbered lines).map (·.1) := List.mem_map.2 ⟨p, hp, rfl⟩
      rw [hn] at this
      exact List.mem_of_mem_filter this
    show p.1.filter _ = p.1
    rw [List.filter_eq_self]
    intro c hc
    simp only [decide_eq_true_eq]
    rintro rfl
    exact hnl _ hp1 hc
  refine ⟨d, hd, ?_, ?_⟩
  · intro hne
    unfold Deck.toStr
    rw [hl]
    apply splitLines_join _ hne
    intro l hl'
    exact hnl l (List.mem_of_mem_filter hl')
  · intro he
    unfold Deck.toStr
    rw [hl, he]
    rfl

/-- C61: the lines of a file deck are the texts of the source lines it expands to, and splitting the
text of the deck at newlines gives them back. -/
theorem C61_file (fs : FileSystem) (fuel : Nat) (cls : CardClass)
    (hcls : cls = argusClass ∨ cls = punchClass) (lines : Option (List Str)) (file : Str)
    (hf : file ≠ []) (d : Deck) (out : List Src) (ho : Expands fs file out)
    (h : Deck.init fs fuel lines (some file) DEFAULT_WIDTH DEFAULT_FIELDS cls = .ok d) :
    d.lines = out.map (fun s => s.text.filter (· ≠ '\n')) ∧
      (out ≠ [] → splitLines d.toStr = d.lines) := by
  obtain ⟨n, d', hd', hk⟩ := C57_complete fs cls hcls lines file hf out ho
  have hlines : d.lines = d.cards.map (·.line) := by
    cases file with
    | nil => exact absurd rfl hf
    | cons c cs =>
      unfold Deck.init at h
      simp only at h
      cases hr : Deck.readSource fs cls DEFAULT_WIDTH DEFAULT_FIELDS fuel true (c :: cs) with
      | error e => rw [hr] at h; cases lines <;> cases h
      | ok cards =>
        rw [hr] at h
        have : Deck.collect (cards.map (·.line)) cards = .ok d := by cases lines <;> exact h
        rw [(collect_cards this).1, (collect_cards this).2.1]
  have hdd : d.cards = d'.cards := by
    obtain ⟨o1, e1, m1⟩ := C57_expansion fs fuel cls _ _ lines file hf d h
    obtain ⟨o2, e2, m2⟩ := C57_expansion fs n cls _ _ lines file hf d' (hd' n (le_refl n))
    rw [C57_unique fs file o1 o2 e1 e2] at m1
    rw [m1] at m2
    exact Except.ok.inj m2
  have e := congrArg (List.map fun p : Option Str × Int × Str => p.2.2) hk
  rw [List.map_map, List.map_map, ← hdd] at e
  have e' : d.lines = out.map (fun s => s.text.filter (· ≠ '\n')) := by
    rw [hlines]; exact e
  refine ⟨e', fun hne => ?_⟩
  unfold Deck.toStr
  show splitLines (joinWith '\n' (d.cards.map (·.line))) = d.lines
  rw [← hlines]
  apply splitLines_join
  · intro l hl
    rw [e'] at hl
    obtain ⟨s, -, rfl⟩ := List.mem_map.1 hl
    intro hm
    have := List.of_mem_filter hm
    simp at this
  · rw [e']
    simpa using hne

/-- The text of a deck with a comment in the middle. -/
example : ∃ d, Deck.init (fun _ => none) 0 (some [py " A", py "# c", py " B"]) none DEFAULT_WIDTH
    DEFAULT_FIELDS argusClass = .ok d ∧ splitLines d.toStr = [py " A", py " B"] := ⟨_, rfl, rfl⟩

end H800
