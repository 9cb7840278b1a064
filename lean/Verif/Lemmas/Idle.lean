import Verif.Lemmas.Tools
import Verif.Lemmas.GenPages
import Verif.Spec.Idle

/-!
Lemmas about lines without code added to files.
-/

namespace H800

open Spec

/-- The card has something the tools look at. -/
def hasCode (c : CodeCard) : Bool := c.label.isSome || c.operation.isSome || c.instruction.isSome

/-- The cards of two readings have the same code, or both fail with the same error. -/
def PadRel : Py (List PunchCard) → Py (List PunchCard) → Prop
  | .ok a, .ok b => ∃ x y, a.mapM codeCard = .ok x ∧ b.mapM codeCard = .ok y ∧
      x.filter hasCode = y.filter hasCode
  | .error e, .error e' => e = e'
  | _, _ => False

theorem PadRel.cons_same {c c' : PunchCard} {k : CodeCard} {r r' : Py (List PunchCard)}
    (h : codeCard c = .ok k) (h' : codeCard c' = .ok k) (hr : PadRel r r') :
    PadRel (do return c :: (← r)) (do return c' :: (← r')) := by
  cases r with
  | error e => cases r' with
    | error e' => exact hr
    | ok b => exact hr.elim
  | ok a => cases r' with
    | error e' => exact hr.elim
    | ok b =>
      obtain ⟨x, y, h1, h2, h3⟩ := hr
      refine ⟨k :: x, k :: y, mapM_cons_ok.2 ⟨_, _, h, h1, rfl⟩, mapM_cons_ok.2 ⟨_, _, h', h2, rfl⟩,
        ?_⟩
      rw [List.filter_cons, List.filter_cons, h3]

theorem PadRel.cons_idle {c : PunchCard} {k : CodeCard} {r r' : Py (List PunchCard)}
    (h : codeCard c = .ok k) (hk : hasCode k = false) (hr : PadRel r r') :
    PadRel r (do return c :: (← r')) := by
  cases r with
  | error e => cases r' with
    | error e' => exact hr
    | ok b => exact hr.elim
  | ok a => cases r' with
    | error e' => exact hr.elim
    | ok b =>
      obtain ⟨x, y, h1, h2, h3⟩ := hr
      refine ⟨x, k :: y, h1, mapM_cons_ok.2 ⟨_, _, h, h2, rfl⟩, ?_⟩
      rw [List.filter_cons_of_neg (by simp [hk]), h3]

theorem PadRel.append {a a' r r' : Py (List PunchCard)} (ha : PadRel a a') (hr : PadRel r r') :
    PadRel (do let i ← a; return i ++ (← r)) (do let i ← a'; return i ++ (← r')) := by
  cases a with
  | error e => cases a' with
    | error e' => exact ha
    | ok b => exact ha.elim
  | ok i => cases a' with
    | error e' => exact ha.elim
    | ok i' =>
      cases r with
      | error e => cases r' with
        | error e' => exact hr
        | ok b => exact hr.elim
      | ok j => cases r' with
        | error e' => exact hr.elim
        | ok j' =>
          obtain ⟨x, y, h1, h2, h3⟩ := ha
          obtain ⟨x', y', h1', h2', h3'⟩ := hr
          refine ⟨x ++ x', y ++ y', mapM_append_ok.2 ⟨_, _, h1, h1', rfl⟩,
            mapM_append_ok.2 ⟨_, _, h2, h2', rfl⟩, ?_⟩
          rw [List.filter_append, List.filter_append, h3, h3']

theorem card_of_line (file l : Str) (n : Nat) (h : l.head? ≠ some '#') :
    ∃ c, argusClass l DEFAULT_WIDTH DEFAULT_FIELDS (some file) n = .ok c ∧
      codeCard c = .ok (srcCard ⟨file, n, l⟩) := by
  obtain ⟨c, hc⟩ := total_argus l (some file) n h
  exact ⟨c, hc, codeCard_src ⟨file, n, l⟩ h c hc⟩

theorem entry_blank {l : Str} (h : Blank l) (a b : Nat) : PunchCard.entry (columns l a b) = none := by
  refine entry_none.2 fun c hc => h c ?_
  unfold columns at hc
  exact List.mem_of_mem_drop (List.mem_of_mem_take hc)

theorem idle_line (file l : Str) (n : Nat) (h : PRL l ∨ Blank l) :
    hasCode (srcCard ⟨file, n, l⟩) = false := by
  rcases h with h | h
  · simp [hasCode, srcCard, (isPRL_iff l).2 h]
  · simp [hasCode, srcCard, entry_blank h]

theorem srcCard_newline (file l : Str) (n : Nat) :
    srcCard ⟨file, n, l ++ ['\n']⟩ = srcCard ⟨file, n, l⟩ := by
  have hr : remove (l ++ ['\n']) '\n' = remove l '\n' := by simp [remove]
  have hv : val (columns (l ++ ['\n']) 1 2) = val (columns l 1 2) := by
    unfold val; rw [entry_newline]
  unfold srcCard
  by_cases hp : Card.isPRL (val (columns l 1 2)) = true
  · simp [entry_newline, hr, hv, hp]
  · simp [entry_newline, hr, hv, hp]

theorem firstWord_newline (s : Str) : firstWord (s ++ ['\n']) = firstWord s := by
  have h : ∀ s : Str, (((s ++ ['\n']).dropWhile isSpace).takeWhile fun c => !isSpace c) =
      ((s.dropWhile isSpace).takeWhile fun c => !isSpace c) := by
    have h2 : ∀ s : Str, ((s ++ ['\n']).takeWhile fun c => !isSpace c) =
        (s.takeWhile fun c => !isSpace c) := by
      intro s
      induction s with
      | nil => rfl
      | cons c s ih =>
        rw [List.cons_append, List.takeWhile_cons, List.takeWhile_cons, ih]
    intro s
    induction s with
    | nil => rfl
    | cons c s ih =>
      rw [List.cons_append, List.dropWhile_cons, List.dropWhile_cons]
      split
      · exact ih
      · rw [← List.cons_append]; exact h2 _
  unfold firstWord
  rw [h]

section
variable {fs fs' : FileSystem} {read read' : Str → Py (List PunchCard)}

theorem loop_added (file : Str) (i : Nat) (ls : List Str) (h : ∀ l ∈ ls, NoCode l) :
    PadRel (.ok []) (Deck.readLoop fs' argusClass DEFAULT_WIDTH DEFAULT_FIELDS true read' file i ls) := by
  induction ls generalizing i with
  | nil => exact ⟨[], [], rfl, rfl, rfl⟩
  | cons l ls ih =>
    have ih := ih (i + 1) fun x hx => h x (List.mem_cons_of_mem _ hx)
    have hl := h l List.mem_cons_self
    rcases line_cases l with ⟨t, rfl⟩ | ⟨t, rfl⟩ | ⟨h1, h2⟩
    · rw [readLoop_comment]; exact ih
    · exfalso
      rcases hl with e | (e | e | e) | e
      · simp at e
      · simp at e
      · simp at e
      · simp at e
      · exact absurd (e '$' List.mem_cons_self) (by decide)
    · rw [readLoop_plain _ _ _ _ _ _ h1 h2]
      obtain ⟨c, hc, hk⟩ := card_of_line file l (i + 1) h1
      push_cast at hc
      rw [hc, py_bind_ok]
      exact ih.cons_idle hk (idle_line _ _ _ (hl.resolve_left h1))

theorem loop_extends (hr : ∀ g, PadRel (read g) (read' g))
    (hn : ∀ g, (fs g).isNone = (fs' g).isNone) (file : Str) (i : Nat) {ls ls' : List Str}
    (h : Extends ls ls') :
    PadRel (Deck.readLoop fs argusClass DEFAULT_WIDTH DEFAULT_FIELDS true read file i ls)
      (Deck.readLoop fs' argusClass DEFAULT_WIDTH DEFAULT_FIELDS true read' file i ls') := by
  induction h generalizing i with
  | more added ha => exact loop_added file i added ha
  | @line l ls ls' _ ih =>
    have ih := ih (i + 1)
    rcases line_cases l with ⟨t, rfl⟩ | ⟨t, rfl⟩ | ⟨h1, h2⟩
    · rw [readLoop_comment, readLoop_comment]; exact ih
    · rw [readLoop_include, readLoop_include]
      cases firstWord t with
      | error e => exact rfl
      | ok inc =>
        rw [py_bind_ok, py_bind_ok, hn inc]
        split
        · exact rfl
        · exact (hr inc).append ih
    · rw [readLoop_plain _ _ _ _ _ _ h1 h2, readLoop_plain _ _ _ _ _ _ h1 h2]
      obtain ⟨c, hc, hk⟩ := card_of_line file l (i + 1) h1
      push_cast at hc
      rw [hc, py_bind_ok, py_bind_ok]
      exact ih.cons_same hk hk
  | last l added hl ha =>
    have ih : PadRel (Deck.readLoop fs argusClass DEFAULT_WIDTH DEFAULT_FIELDS true read file (i + 1) [])
        (Deck.readLoop fs' argusClass DEFAULT_WIDTH DEFAULT_FIELDS true read' file (i + 1) added) :=
      loop_added file (i + 1) added ha
    rcases line_cases l with ⟨t, rfl⟩ | ⟨t, rfl⟩ | ⟨h1, h2⟩
    · rw [List.cons_append, readLoop_comment, readLoop_comment]; exact ih
    · rw [List.cons_append, readLoop_include, readLoop_include, firstWord_newline]
      cases firstWord t with
      | error e => exact rfl
      | ok inc =>
        rw [py_bind_ok, py_bind_ok, hn inc]
        split
        · exact rfl
        · exact (hr inc).append ih
    · have hd : ∀ c, l.head? ≠ some c → c ≠ '\n' → (l ++ ['\n']).head? ≠ some c := by
        intro c hc hne
        cases l with
        | nil => simpa using hne.symm
        | cons x l => exact hc
      rw [readLoop_plain _ _ _ _ _ _ h1 h2,
        readLoop_plain _ _ _ _ _ _ (hd _ h1 (by decide)) (hd _ h2 (by decide))]
      obtain ⟨c, hc, hk⟩ := card_of_line file l (i + 1) h1
      obtain ⟨c', hc', hk'⟩ := card_of_line file (l ++ ['\n']) (i + 1) (hd _ h1 (by decide))
      rw [srcCard_newline] at hk'
      push_cast at hc hc'
      rw [hc, hc', py_bind_ok, py_bind_ok]
      exact ih.cons_same hk hk'

theorem sameCode_isNone (h : SameCode fs fs') (g : Str) : (fs g).isNone = (fs' g).isNone := by
  rcases h g with ⟨h1, h2⟩ | ⟨t, t', h1, h2, -⟩ <;> rw [h1, h2]; rfl

theorem read_extends (h : SameCode fs fs') (fuel : Nat) (g : Str) :
    PadRel (Deck.readSource fs argusClass DEFAULT_WIDTH DEFAULT_FIELDS fuel true g)
      (Deck.readSource fs' argusClass DEFAULT_WIDTH DEFAULT_FIELDS fuel true g) := by
  induction fuel generalizing g with
  | zero => exact rfl
  | succ fuel ih =>
    rw [Deck.readSource, Deck.readSource]
    rcases h g with ⟨h1, h2⟩ | ⟨t, t', h1, h2, he⟩
    · rw [h1, h2]; exact rfl
    · rw [h1, h2]
      exact loop_extends ih (sameCode_isNone h) g 0 he

end

theorem deckCards_read {fs : FileSystem} {fuel : Nat} {c : Char} {cs : Str} {cards : List PunchCard}
    (h : Deck.readSource fs argusClass DEFAULT_WIDTH DEFAULT_FIELDS fuel true (c :: cs) = .ok cards) :
    deckCards fs fuel (c :: cs) = cards.mapM codeCard := by
  obtain ⟨out, h1, h2⟩ := readSource_sound h
  rw [deckCards_of_read h1 h2 h, (findLog_ok (expands_ne h1) h2).2]

theorem deckCards_read_error {fs : FileSystem} {fuel : Nat} {c : Char} {cs : Str} {e : PyErr}
    (h : Deck.readSource fs argusClass DEFAULT_WIDTH DEFAULT_FIELDS fuel true (c :: cs) = .error e) :
    deckCards fs fuel (c :: cs) = .error e := by
  unfold deckCards ArgusDeck.init Deck.init
  simp only [h, py_bind_error]

/-- Both decks can be read and have the same cards with code, or reading fails the same way. -/
theorem deckCards_same {fs fs' : FileSystem} (h : SameCode fs fs') (fuel : Nat) (g : Str) :
    (∃ a b, deckCards fs fuel g = .ok a ∧ deckCards fs' fuel g = .ok b ∧
      a.filter hasCode = b.filter hasCode) ∨
    ∃ e, deckCards fs fuel g = .error e ∧ deckCards fs' fuel g = .error e := by
  cases g with
  | nil => exact Or.inr ⟨_, rfl, rfl⟩
  | cons c cs =>
    have := read_extends h fuel (c :: cs)
    cases h1 : Deck.readSource fs argusClass DEFAULT_WIDTH DEFAULT_FIELDS fuel true (c :: cs) with
    | error e =>
      cases h2 : Deck.readSource fs' argusClass DEFAULT_WIDTH DEFAULT_FIELDS fuel true (c :: cs) with
      | error e' =>
        rw [h1, h2] at this
        cases this
        exact Or.inr ⟨_, deckCards_read_error h1, deckCards_read_error h2⟩
      | ok b => rw [h1, h2] at this; exact this.elim
    | ok a =>
      cases h2 : Deck.readSource fs' argusClass DEFAULT_WIDTH DEFAULT_FIELDS fuel true (c :: cs) with
      | error e' => rw [h1, h2] at this; exact this.elim
      | ok b =>
        rw [h1, h2] at this
        obtain ⟨x, y, hx, hy, hxy⟩ := this
        exact Or.inl ⟨x, y, (deckCards_read h1).trans hx, (deckCards_read h2).trans hy, hxy⟩

/-! ### The loops of the tools skip cards without code -/

theorem hasCode_false {c : CodeCard} (h : hasCode c = false) :
    c.label = none ∧ c.operation = none ∧ c.instruction = none := by
  simpa [hasCode, and_assoc] using h

theorem build_skip (upper : Str → Str) (seg : Str) (st : BuildState) (cs : List CodeCard) :
    buildCards upper seg st cs = buildCards upper seg st (cs.filter hasCode) := by
  unfold buildCards
  induction cs generalizing st with
  | nil => rfl
  | cons c cs ih =>
    by_cases hc : hasCode c = true
    · rw [List.filter_cons_of_pos hc, List.foldlM_cons, List.foldlM_cons]
      cases buildStep upper seg st c with
      | error e => rfl
      | ok st' => exact ih st'
    · obtain ⟨h1, h2, h3⟩ := hasCode_false (by simpa using hc)
      rw [List.filter_cons_of_neg hc, List.foldlM_cons]
      have : buildStep upper seg st c = .ok st := by
        unfold buildStep
        rw [h1, h2]
        simp [nextSubseg]
      rw [this]
      exact ih st

theorem listed_skip (opcode : Str) (cs : List CodeCard) :
    cs.filter (listed opcode) = (cs.filter hasCode).filter (listed opcode) := by
  rw [List.filter_filter]
  refine List.filter_congr fun c _ => ?_
  by_cases hc : hasCode c = true
  · rw [hc]; simp
  · obtain ⟨h1, h2, h3⟩ := hasCode_false (by simpa using hc)
    unfold listed
    rw [h2]
    simp

/-- A state of check-instructions without the line count. -/
def noCount (st : CheckState) : CheckState := { st with linecount := 0 }

theorem checkStep_noCount (opts : CheckOpts) {st st' : CheckState} (h : noCount st = noCount st')
    (c : CodeCard) : noCount (checkStep opts st c) = noCount (checkStep opts st' c) := by
  obtain ⟨a, b, d, e, f⟩ := st
  obtain ⟨a', b', d', e', f'⟩ := st'
  simp only [noCount, CheckState.mk.injEq, true_and] at h
  obtain ⟨rfl, rfl, rfl, rfl⟩ := h
  unfold checkStep
  cases c.instruction with
  | none => rfl
  | some s => cases s with
    | nil => rfl
    | cons x xs =>
      simp only
      split
      · rfl
      · split
        · rfl
        · split
          · split <;> rfl
          · rfl

theorem check_skip (opts : CheckOpts) {st st' : CheckState} (h : noCount st = noCount st')
    {a b : List CodeCard} (hab : a.filter hasCode = b.filter hasCode) :
    noCount (a.foldl (checkStep opts) st) = noCount (b.foldl (checkStep opts) st') := by
  have skip : ∀ (cs : List CodeCard) (st st' : CheckState), noCount st = noCount st' →
      noCount (cs.foldl (checkStep opts) st) =
        noCount ((cs.filter hasCode).foldl (checkStep opts) st') := by
    intro cs
    induction cs with
    | nil => exact fun _ _ h => h
    | cons c cs ih =>
      intro st st' h
      by_cases hc : hasCode c = true
      · rw [List.filter_cons_of_pos hc]
        exact ih _ _ (checkStep_noCount opts h c)
      · obtain ⟨h1, h2, h3⟩ := hasCode_false (by simpa using hc)
        rw [List.filter_cons_of_neg hc]
        refine ih _ _ ?_
        rw [← h]
        unfold checkStep
        rw [h3]
        rfl
  have e1 := skip a st st' h
  have e2 := skip b st' st' rfl
  rw [e1, e2, hab]

/-- A state of parse without the line count. -/
def noLines (st : ParseState) : ParseState := { st with linecount := 0 }

theorem parseStep_noLines {st st' : ParseState} (h : noLines st = noLines st')
    (c : CodeCard) : noLines (parseStep st c) = noLines (parseStep st' c) := by
  obtain ⟨a, b, d, e, f⟩ := st
  obtain ⟨a', b', d', e', f'⟩ := st'
  simp only [noLines, ParseState.mk.injEq, true_and] at h
  obtain ⟨rfl, rfl, rfl, rfl⟩ := h
  unfold parseStep
  cases c.instruction with
  | none => rfl
  | some s => cases s with
    | nil => rfl
    | cons x xs =>
      simp only
      split
      · rfl
      · split <;> rfl

theorem parse_skip {st st' : ParseState} (h : noLines st = noLines st')
    {a b : List CodeCard} (hab : a.filter hasCode = b.filter hasCode) :
    noLines (a.foldl parseStep st) = noLines (b.foldl parseStep st') := by
  have skip : ∀ (cs : List CodeCard) (st st' : ParseState), noLines st = noLines st' →
      noLines (cs.foldl parseStep st) =
        noLines ((cs.filter hasCode).foldl parseStep st') := by
    intro cs
    induction cs with
    | nil => exact fun _ _ h => h
    | cons c cs ih =>
      intro st st' h
      by_cases hc : hasCode c = true
      · rw [List.filter_cons_of_pos hc]
        exact ih _ _ (parseStep_noLines h c)
      · obtain ⟨h1, h2, h3⟩ := hasCode_false (by simpa using hc)
        rw [List.filter_cons_of_neg hc]
        refine ih _ _ ?_
        rw [← h]
        unfold parseStep
        rw [h3]
        rfl
  have e1 := skip a st st' h
  have e2 := skip b st' st' rfl
  rw [e1, e2, hab]

end H800
