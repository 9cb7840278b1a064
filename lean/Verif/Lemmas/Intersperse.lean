import Verif.Lemmas.Idle
import Verif.Lemmas.Verbose
import Verif.Spec.Intersperse

/-!
Lemmas about lines without code anywhere in files.
-/

namespace H800

open Spec

variable {kp : Keep}

/-- Whether a card makes a difference: if line numbers are kept each does, if not those with code. -/
def counts (kp : Keep) (c : CodeCard) : Bool := kp.lines || hasCode c

theorem counts_false {c : CodeCard} (h : counts kp c = false) : kp.lines = false ∧ hasCode c = false := by
  simpa [counts] using h

/-- The cards of two readings have the same code but for what is left out, or both fail with the same
error. -/
def NumRel (kp : Keep) : Py (List PunchCard) → Py (List PunchCard) → Prop
  | .ok a, .ok b => ∃ x y : List Src, a.mapM codeCard = .ok (x.map srcCard) ∧
      b.mapM codeCard = .ok (y.map srcCard) ∧
      ((x.map srcCard).filter (counts kp)).map (anonCard kp) = ((y.map srcCard).filter (counts kp)).map (anonCard kp)
  | .error e, .error e' => e = e'
  | _, _ => False

/-- What two readings have told and read. -/
def ReadRel {α : Type} (kp : Keep) (f : α → Option α) (p q : List (VMsg α) × Py (List PunchCard)) : Prop :=
  p.1.filterMap (anonMsg kp f) = q.1.filterMap (anonMsg kp f) ∧
    p.1.filter (notComment kp) = q.1.filter (notComment kp) ∧ NumRel kp p.2 q.2

theorem hasCode_anon (kp : Keep) (c : CodeCard) : hasCode (anonCard kp c) = hasCode c := by
  unfold hasCode anonCard
  rw [Option.isSome_map]

section
variable {α : Type} {f : α → Option α} {v : Bool} {fs fs' : FileSystem}
  {read read' : Str → List (VMsg α) × Py (List PunchCard)}

/-- Reading a line that makes a card. -/
theorem readLoopV_card (read : Str → List (VMsg α) × Py (List PunchCard)) (file : Str)
    (i : Nat) (l : Str) (ls : List Str) (h1 : l.head? ≠ some '#') (h2 : l.head? ≠ some '$') :
    ∃ c, codeCard c = .ok (srcCard ⟨file, i + 1, l⟩) ∧
      Deck.readLoopV v fs argusClass DEFAULT_WIDTH DEFAULT_FIELDS true read file i (l :: ls) =
        ((Deck.readLoopV v fs argusClass DEFAULT_WIDTH DEFAULT_FIELDS true read file (i + 1) ls).1,
          (Deck.readLoopV v fs argusClass DEFAULT_WIDTH DEFAULT_FIELDS true read file (i + 1) ls).2.map
            (c :: ·)) := by
  obtain ⟨c, hc, hk⟩ := card_of_line file l (i + 1) h1
  push_cast at hc
  refine ⟨c, hk, ?_⟩
  rw [readLoopV_plain _ _ _ _ _ _ h1 h2, hc]
  simp only
  generalize Deck.readLoopV v fs argusClass DEFAULT_WIDTH DEFAULT_FIELDS true read file (i + 1) ls = q
  obtain ⟨o, q⟩ := q
  cases q <;> rfl

theorem ReadRel.idle_right (hk : kp.lines = false) {p : List (VMsg α) × Py (List PunchCard)} {o : List (VMsg α)}
    {r : Py (List PunchCard)} {c : PunchCard} {s : Src} (hc : codeCard c = .ok (srcCard s))
    (hs : hasCode (srcCard s) = false) (h : ReadRel kp f p (o, r)) :
    ReadRel kp f p (o, r.map (c :: ·)) := by
  obtain ⟨h1, h2, h3⟩ := h
  refine ⟨h1, h2, ?_⟩
  obtain ⟨o', p⟩ := p
  cases p with
  | error e => cases r with
    | error e' => exact h3
    | ok b => exact h3.elim
  | ok a => cases r with
    | error e' => exact h3.elim
    | ok b =>
      obtain ⟨x, y, k1, k2, k3⟩ := h3
      refine ⟨x, s :: y, k1, mapM_cons_ok.2 ⟨_, _, hc, k2, rfl⟩, ?_⟩
      rw [List.map_cons, List.filter_cons_of_neg (by simp [counts, hk, hs]), k3]

theorem ReadRel.symm {p q : List (VMsg α) × Py (List PunchCard)} (h : ReadRel kp f p q) :
    ReadRel kp f q p := by
  obtain ⟨h1, h2, h3⟩ := h
  refine ⟨h1.symm, h2.symm, ?_⟩
  obtain ⟨o, p⟩ := p
  obtain ⟨o', q⟩ := q
  cases p with
  | error e => cases q with
    | error e' => exact Eq.symm h3
    | ok b => exact h3.elim
  | ok a => cases q with
    | error e' => exact h3.elim
    | ok b =>
      obtain ⟨x, y, k1, k2, k3⟩ := h3
      exact ⟨y, x, k2, k1, k3.symm⟩

theorem ReadRel.cons {o o' : List (VMsg α)} {r r' : Py (List PunchCard)} {c c' : PunchCard} {s s' : Src}
    (hc : codeCard c = .ok (srcCard s)) (hc' : codeCard c' = .ok (srcCard s'))
    (hs : anonCard kp (srcCard s) = anonCard kp (srcCard s')) (h : ReadRel kp f (o, r) (o', r')) :
    ReadRel kp f (o, r.map (c :: ·)) (o', r'.map (c' :: ·)) := by
  obtain ⟨h1, h2, h3⟩ := h
  refine ⟨h1, h2, ?_⟩
  cases r with
  | error e => cases r' with
    | error e' => exact h3
    | ok b => exact h3.elim
  | ok a => cases r' with
    | error e' => exact h3.elim
    | ok b =>
      obtain ⟨x, y, k1, k2, k3⟩ := h3
      refine ⟨s :: x, s' :: y, mapM_cons_ok.2 ⟨_, _, hc, k1, rfl⟩, mapM_cons_ok.2 ⟨_, _, hc', k2, rfl⟩,
        ?_⟩
      have hk : counts kp (srcCard s) = counts kp (srcCard s') := by
        unfold counts
        rw [← hasCode_anon kp, hs, hasCode_anon]
      rw [List.map_cons, List.map_cons, List.filter_cons, List.filter_cons, hk]
      split
      · rw [List.map_cons, List.map_cons, k3, hs]
      · exact k3

/-- An included file and the lines after it. -/
def joinRead {α : Type} (a r : List (VMsg α) × Py (List PunchCard)) :
    List (VMsg α) × Py (List PunchCard) :=
  match a with
  | (out, .error e) => (out, .error e)
  | (out, .ok icards) =>
    match r with
    | (out', .error e) => (out ++ out', .error e)
    | (out', .ok cards) => (out ++ out', .ok (icards ++ cards))

theorem ReadRel.append {a r a' r' : List (VMsg α) × Py (List PunchCard)}
    (ha : ReadRel kp f a a') (hr : ReadRel kp f r r') :
    ReadRel kp f (joinRead a r) (joinRead a' r') := by
  obtain ⟨o1, a⟩ := a
  obtain ⟨o1', a'⟩ := a'
  obtain ⟨o2, r⟩ := r
  obtain ⟨o2', r'⟩ := r'
  obtain ⟨a1, a2, a3⟩ := ha
  obtain ⟨r1, r2, r3⟩ := hr
  simp only at a1 a2 r1 r2
  have e1 : (o1 ++ o2).filterMap (anonMsg kp f) = (o1' ++ o2').filterMap (anonMsg kp f) := by
    rw [List.filterMap_append, List.filterMap_append, a1, r1]
  have e2 : (o1 ++ o2).filter (notComment kp) = (o1' ++ o2').filter (notComment kp) := by
    rw [List.filter_append, List.filter_append, a2, r2]
  cases a with
  | error e => cases a' with
    | error e' => exact ⟨a1, a2, a3⟩
    | ok b => exact a3.elim
  | ok i => cases a' with
    | error e' => exact a3.elim
    | ok i' =>
      cases r with
      | error e => cases r' with
        | error e' => exact ⟨e1, e2, r3⟩
        | ok b => exact r3.elim
      | ok j => cases r' with
        | error e' => exact r3.elim
        | ok j' =>
          obtain ⟨x, y, h1, h2, h3⟩ := a3
          obtain ⟨x', y', h1', h2', h3'⟩ := r3
          refine ⟨e1, e2, x ++ x', y ++ y', ?_, ?_, ?_⟩
          · rw [List.map_append]; exact mapM_append_ok.2 ⟨_, _, h1, h1', rfl⟩
          · rw [List.map_append]; exact mapM_append_ok.2 ⟨_, _, h2, h2', rfl⟩
          · simp only [List.map_append, List.filter_append, h3, h3']

theorem noCode_not_include {t : Str} (h : NoCode ('$' :: t)) : False := by
  rcases h with e | (e | e | e) | e
  · simp at e
  · simp at e
  · simp at e
  · simp at e
  · exact absurd (e '$' List.mem_cons_self) (by decide)

theorem told_comment (hk : kp.lines = false) (b : Bool) (file : Str) (n : Nat) (o : List (VMsg α)) :
    ((if b then [VMsg.meta_ file n] else []) ++ o).filterMap (anonMsg kp f) = o.filterMap (anonMsg kp f) ∧
      ((if b then [VMsg.meta_ file n] else []) ++ o).filter (notComment kp) = o.filter (notComment kp) := by
  cases b
  · exact ⟨rfl, rfl⟩
  · exact ⟨List.filterMap_cons_none (by simp [anonMsg, hk]),
      List.filter_cons_of_neg (by simp [notComment, hk])⟩

/-- A line without code. -/
theorem loopV_noCode (hk : kp.lines = false) (p : List (VMsg α) × Py (List PunchCard)) (file : Str) (i : Nat) {l : Str}
    (ls : List Str) (hl : NoCode l)
    (h : ReadRel kp f p (Deck.readLoopV v fs' argusClass DEFAULT_WIDTH DEFAULT_FIELDS true read' file
      (i + 1) ls)) :
    ReadRel kp f p (Deck.readLoopV v fs' argusClass DEFAULT_WIDTH DEFAULT_FIELDS true read' file i
      (l :: ls)) := by
  rcases line_cases l with ⟨t, rfl⟩ | ⟨t, rfl⟩ | ⟨h1, h2⟩
  · rw [readLoopV_comment]
    obtain ⟨k1, k2, k3⟩ := h
    obtain ⟨t1, t2⟩ := told_comment (f := f) hk v file (i + 1) (Deck.readLoopV v fs' argusClass DEFAULT_WIDTH
      DEFAULT_FIELDS true read' file (i + 1) ls).1
    exact ⟨k1.trans t1.symm, k2.trans t2.symm, k3⟩
  · exact (noCode_not_include hl).elim
  · obtain ⟨c, hc, e⟩ := readLoopV_card (v := v) (fs := fs') read' file i l ls h1 h2
    rw [e]
    exact ReadRel.idle_right hk hc (idle_line _ _ _ (hl.resolve_left h1)) h

theorem anon_num (hk : kp.lines = false) (file l : Str) (n m : Nat) :
    anonCard kp (srcCard ⟨file, n, l⟩) = anonCard kp (srcCard ⟨file, m, l⟩) := by
  simp only [anonCard, srcCard, anonNum, hk, Bool.false_eq_true, if_false]

/-- The same line. -/
theorem loopV_line (hk : kp.lines = false) (hr : ∀ g, ReadRel kp f (read g) (read' g))
    (hn : ∀ g, (fs g).isNone = (fs' g).isNone) (file : Str) (i j : Nat) {l l' : Str}
    {ls ls' : List Str} (hl : l' = l ∨ l' = l ++ ['\n'])
    (h : ReadRel kp f
      (Deck.readLoopV v fs argusClass DEFAULT_WIDTH DEFAULT_FIELDS true read file (i + 1) ls)
      (Deck.readLoopV v fs' argusClass DEFAULT_WIDTH DEFAULT_FIELDS true read' file (j + 1) ls')) :
    ReadRel kp f
      (Deck.readLoopV v fs argusClass DEFAULT_WIDTH DEFAULT_FIELDS true read file i (l :: ls))
      (Deck.readLoopV v fs' argusClass DEFAULT_WIDTH DEFAULT_FIELDS true read' file j (l' :: ls')) := by
  rcases line_cases l with ⟨t, rfl⟩ | ⟨t, rfl⟩ | ⟨h1, h2⟩
  · obtain ⟨t', rfl⟩ : ∃ t', l' = '#' :: t' := by
      rcases hl with rfl | rfl
      · exact ⟨t, rfl⟩
      · exact ⟨t ++ ['\n'], rfl⟩
    rw [readLoopV_comment, readLoopV_comment]
    obtain ⟨k1, k2, k3⟩ := h
    refine ⟨?_, ?_, k3⟩
    · rw [(told_comment (f := f) hk v file _ _).1, (told_comment (f := f) hk v file _ _).1, k1]
    · rw [(told_comment (f := f) hk v file _ _).2, (told_comment (f := f) hk v file _ _).2, k2]
  · obtain ⟨t', rfl, hw⟩ : ∃ t', l' = '$' :: t' ∧ firstWord t' = firstWord t := by
      rcases hl with rfl | rfl
      · exact ⟨t, rfl, rfl⟩
      · exact ⟨t ++ ['\n'], rfl, firstWord_newline t⟩
    rw [readLoopV_include, readLoopV_include, hw]
    cases firstWord t with
    | error e => exact ⟨rfl, rfl, rfl⟩
    | ok inc =>
      simp only
      rw [hn inc]
      split
      · exact ⟨rfl, rfl, rfl⟩
      · exact ReadRel.append (hr inc) h
  · have hd : ∀ c, l.head? ≠ some c → c ≠ '\n' → l'.head? ≠ some c := by
      intro c hc hne
      rcases hl with rfl | rfl
      · exact hc
      · cases l with
        | nil => simpa using hne.symm
        | cons x l => exact hc
    obtain ⟨c, hc, e⟩ := readLoopV_card (v := v) (fs := fs) read file i l ls h1 h2
    obtain ⟨c', hc', e'⟩ := readLoopV_card (v := v) (fs := fs') read' file j l' ls' (hd _ h1 (by decide))
      (hd _ h2 (by decide))
    rw [e, e']
    refine ReadRel.cons hc hc' ?_ h
    rcases hl with rfl | rfl
    · exact anon_num hk _ _ _ _
    · rw [srcCard_newline]; exact anon_num hk _ _ _ _

theorem loopV_interspersed (hk : kp.lines = false) (hr : ∀ g, ReadRel kp f (read g) (read' g))
    (hn : ∀ g, (fs g).isNone = (fs' g).isNone) (file : Str) (i j : Nat) {ls ls' : List Str}
    (h : Interspersed ls ls') :
    ReadRel kp f (Deck.readLoopV v fs argusClass DEFAULT_WIDTH DEFAULT_FIELDS true read file i ls)
      (Deck.readLoopV v fs' argusClass DEFAULT_WIDTH DEFAULT_FIELDS true read' file j ls') := by
  induction h generalizing i j with
  | nil =>
    rw [Deck.readLoopV, Deck.readLoopV]
    exact ⟨rfl, rfl, [], [], rfl, rfl, rfl⟩
  | put l hl _ ih => exact loopV_noCode hk _ file j _ hl (ih i (j + 1))
  | take l hl _ ih => exact (loopV_noCode hk _ file i _ hl (ih (i + 1) j).symm).symm
  | line l _ ih => exact loopV_line hk hr hn file i j (Or.inl rfl) (ih (i + 1) (j + 1))
  | ended l _ _ ih => exact loopV_line hk hr hn file i j (Or.inr rfl) (ih (i + 1) (j + 1))
  | unended l _ _ ih =>
    exact (loopV_line hk (fun g => (hr g).symm) (fun g => (hn g).symm) file j i (Or.inr rfl)
      (ih (i + 1) (j + 1)).symm).symm

theorem sameProgram_isNone (h : SameProgram fs fs') (g : Str) : (fs g).isNone = (fs' g).isNone := by
  rcases h g with ⟨h1, h2⟩ | ⟨t, t', h1, h2, -⟩ <;> rw [h1, h2]; rfl

theorem readV_interspersed (hk : kp.lines = false) (h : SameProgram fs fs') (fuel : Nat) (g : Str) :
    ReadRel kp f (Deck.readSourceV v fs argusClass DEFAULT_WIDTH DEFAULT_FIELDS fuel true g)
      (Deck.readSourceV v fs' argusClass DEFAULT_WIDTH DEFAULT_FIELDS fuel true g) := by
  induction fuel generalizing g with
  | zero => exact ⟨rfl, rfl, rfl⟩
  | succ fuel ih =>
    rw [Deck.readSourceV, Deck.readSourceV]
    rcases h g with ⟨h1, h2⟩ | ⟨t, t', h1, h2, he⟩
    · rw [h1, h2]; exact ⟨rfl, rfl, rfl⟩
    · rw [h1, h2]
      obtain ⟨k1, k2, k3⟩ := loopV_interspersed (v := v) hk ih (sameProgram_isNone h) g 0 0 he
      refine ⟨?_, ?_, k3⟩
      · simp only [List.filterMap_append, k1]
      · simp only [List.filter_append, k2]

end

/-- Two decks have the same code but for what is left out, and the same is told about them; or both
fail with the same error. -/
def SameDeck (kp : Keep) (v : Bool) (fs fs' : FileSystem) (fuel fuel' : Nat) (g g' : Str) : Prop :=
  ∀ (α : Type) (f : α → Option α),
    ∃ o o' : List (VMsg α), o.filterMap (anonMsg kp f) = o'.filterMap (anonMsg kp f) ∧
      o.filter (notComment kp) = o'.filter (notComment kp) ∧
      ((∃ e, deckCardsV v fs fuel g = (o, .error e) ∧ deckCardsV v fs' fuel' g' = (o', .error e)) ∨
      ∃ x y : List Src, deckCardsV v fs fuel g = (o, .ok (x.map srcCard)) ∧
        deckCardsV v fs' fuel' g' = (o', .ok (y.map srcCard)) ∧
        ((x.map srcCard).filter (counts kp)).map (anonCard kp) =
          ((y.map srcCard).filter (counts kp)).map (anonCard kp))

/-- The same of two files, that define tags in the same segment, and have the same name unless names
are left out. -/
def SameFile (kp : Keep) (v : Bool) (fs fs' : FileSystem) (fuel fuel' : Nat) (g g' : Str) : Prop :=
  SameDeck kp v fs fs' fuel fuel' g g' ∧ splitFirst g '.' = splitFirst g' '.' ∧
    anonGiven kp g = anonGiven kp g'

theorem sameFiles {v : Bool} {fs fs' : FileSystem} {fuel fuel' : Nat} {files : List Str}
    (h : ∀ g ∈ files, SameDeck kp v fs fs' fuel fuel' g g) :
    List.Forall₂ (SameFile kp v fs fs' fuel fuel') files files :=
  List.forall₂_same.2 fun g hg => ⟨h g hg, rfl, rfl⟩

theorem sameFiles_decks {v : Bool} {fs fs' : FileSystem} {fuel fuel' : Nat} {files files' : List Str}
    (h : List.Forall₂ (SameFile kp v fs fs' fuel fuel') files files') :
    List.Forall₂ (SameDeck kp v fs fs' fuel fuel') files files' := h.imp fun _ _ h => h.1

/-- The cards of a deck and what is told about it. -/
theorem deckV_of_read {v : Bool} {fs fs' : FileSystem} (fuel : Nat) (g : Str)
    (h : ∀ (α : Type) (f : α → Option α),
      ReadRel kp f (Deck.readSourceV v fs argusClass DEFAULT_WIDTH DEFAULT_FIELDS fuel true g)
        (Deck.readSourceV v fs' argusClass DEFAULT_WIDTH DEFAULT_FIELDS fuel true g)) :
    SameDeck kp v fs fs' fuel fuel g g := by
  intro α f
  cases g with
  | nil => exact ⟨[], [], rfl, rfl, Or.inl ⟨_, rfl, rfl⟩⟩
  | cons c cs =>
    obtain ⟨h1, h2, h3⟩ := h α f
    refine ⟨_, _, h1, h2, ?_⟩
    have e1 := deckCardsV_fst (α := α) v fs fuel c cs
    have e1' := deckCardsV_fst (α := α) v fs' fuel c cs
    have e2 := deckCardsV_snd (α := α) v fs fuel (c :: cs)
    have e2' := deckCardsV_snd (α := α) v fs' fuel (c :: cs)
    have e3 := readSourceV_snd (α := α) (v := v) (fs := fs) (cls := argusClass)
      (width := DEFAULT_WIDTH) (fields := DEFAULT_FIELDS) fuel (c :: cs)
    have e3' := readSourceV_snd (α := α) (v := v) (fs := fs') (cls := argusClass)
      (width := DEFAULT_WIDTH) (fields := DEFAULT_FIELDS) fuel (c :: cs)
    rw [e3, e3'] at h3
    cases r1 : Deck.readSource fs argusClass DEFAULT_WIDTH DEFAULT_FIELDS fuel true (c :: cs) with
    | error e =>
      cases r2 : Deck.readSource fs' argusClass DEFAULT_WIDTH DEFAULT_FIELDS fuel true (c :: cs) with
      | error e' =>
        rw [r1, r2] at h3
        cases h3
        refine Or.inl ⟨e, ?_, ?_⟩
        · exact Prod.ext e1 (e2.trans (deckCards_read_error r1))
        · exact Prod.ext e1' (e2'.trans (deckCards_read_error r2))
      | ok b => rw [r1, r2] at h3; exact h3.elim
    | ok a =>
      cases r2 : Deck.readSource fs' argusClass DEFAULT_WIDTH DEFAULT_FIELDS fuel true (c :: cs) with
      | error e' => rw [r1, r2] at h3; exact h3.elim
      | ok b =>
        rw [r1, r2] at h3
        obtain ⟨x, y, k1, k2, k3⟩ := h3
        refine Or.inr ⟨x, y, ?_, ?_, k3⟩
        · exact Prod.ext e1 (e2.trans ((deckCards_read r1).trans k1))
        · exact Prod.ext e1' (e2'.trans ((deckCards_read r2).trans k2))

theorem deckV_interspersed (hk : kp.lines = false) {v : Bool} {fs fs' : FileSystem}
    (h : SameProgram fs fs') (fuel : Nat) (g : Str) : SameDeck kp v fs fs' fuel fuel g g :=
  deckV_of_read fuel g fun _ _ => readV_interspersed hk h fuel g

end H800
