import Verif.Spec.Unread
import Verif.Lemmas.SameDecks
import Verif.Lemmas.Inline

/-!
Lemmas about lines that differ only in columns no tool looks into.
-/

namespace H800

open Spec

/-- A line without newline, and what its card is made of. -/
theorem line_text {l u : Str} (hu : '\n' ∉ u) (h : l = u ∨ l = u ++ ['\n']) :
    l.filter (· ≠ '\n') = u := by
  rcases h with rfl | rfl
  · exact filter_noNewline hu
  · rw [List.filter_append, filter_noNewline hu]; simp

/-- An entry is determined by the characters in its columns. -/
theorem entry_columns (u : Str) (hu : '\n' ∉ u) (a b : Nat) (ha : 1 ≤ a) :
    PunchCard.entry (columns u a b) =
      PunchCard.entry ((List.range (b - a)).map fun j => columnAt u (a + j)) := by
  have h : (List.range (b - a)).map (fun j => columnAt u (a + j)) =
      columns u a b ++ List.replicate (b - a - (columns u a b).length) ' ' := by
    refine List.ext_getElem ?_ fun j h1 h2 => ?_
    · simp [columns]
    · rw [List.getElem_map, List.getElem_range]
      unfold columnAt
      rw [filter_noNewline hu]
      by_cases hj : j < (columns u a b).length
      · rw [List.getElem_append_left hj]
        have hj' := hj
        simp only [columns, List.length_take, List.length_drop] at hj'
        have hlt : a + j - 1 < u.length := by omega
        simp only [columns, List.getElem_take, List.getElem_drop]
        rw [List.getElem?_eq_getElem hlt, Option.getD_some]
        congr 1
        omega
      · rw [List.getElem_append_right (by omega), List.getElem_replicate]
        have h3 : j < b - a := by simpa using h1
        simp only [columns, List.length_take, List.length_drop] at hj
        rw [List.getElem?_eq_none (by omega), Option.getD_none]
  rw [h]
  unfold PunchCard.entry
  rw [strip_append_blank]
  intro c hc
  rw [List.eq_of_mem_replicate hc]
  decide

theorem entry_front {u u' : Str} (hu : '\n' ∉ u) (hu' : '\n' ∉ u') {a b : Nat} (ha : 1 ≤ a)
    (h : ∀ i, a ≤ i → i < b → columnAt u i = columnAt u' i) :
    PunchCard.entry (columns u a b) = PunchCard.entry (columns u' a b) := by
  rw [entry_columns u hu a b ha, entry_columns u' hu' a b ha]
  congr 1
  refine List.map_congr_left fun j hj => ?_
  rw [List.mem_range] at hj
  exact h (a + j) (by omega) (by omega)

theorem columnAt_newline (u : Str) (i : Nat) : columnAt (u ++ ['\n']) i = columnAt u i := by
  unfold columnAt
  rw [List.filter_append]
  simp

theorem prl_newline (u : Str) : PRL (u ++ ['\n']) ↔ PRL u := by
  unfold PRL
  cases u with
  | nil => simp
  | cons c u => rfl

/-- The cards of two lines with the same front. -/
theorem card_front {u u' : Str} (hu : '\n' ∉ u) (hu' : '\n' ∉ u') (file : Str) (n : Nat)
    (h : ∀ i, i = 1 ∨ i = 8 ∨ ¬ PRL u ∧ 9 ≤ i ∧ i ≤ 32 → columnAt u i = columnAt u' i) :
    anonCard .noTexts (srcCard ⟨file, n, u⟩) = anonCard .noTexts (srcCard ⟨file, n, u'⟩) := by
  have e1 : PunchCard.entry (columns u 1 2) = PunchCard.entry (columns u' 1 2) :=
    entry_front hu hu' (by omega) fun i h1 h2 => h i (by omega)
  have e8 : PunchCard.entry (columns u 8 9) = PunchCard.entry (columns u' 8 9) :=
    entry_front hu hu' (by omega) fun i h1 h2 => h i (by omega)
  have hv : val (columns u 1 2) = val (columns u' 1 2) := by unfold val; rw [e1]
  have key : Card.isPRL (val (columns u 1 2)) = false →
      PunchCard.entry (columns u 9 20) = PunchCard.entry (columns u' 9 20) ∧
      PunchCard.entry (columns u 20 33) = PunchCard.entry (columns u' 20 33) := by
    intro hp
    have hp' : ¬ PRL u := fun hq => by rw [(isPRL_iff u).2 hq] at hp; cases hp
    exact ⟨entry_front hu hu' (by omega) fun i h1 h2 => h i (Or.inr (Or.inr ⟨hp', by omega, by omega⟩)),
      entry_front hu hu' (by omega) fun i h1 h2 => h i (Or.inr (Or.inr ⟨hp', by omega, by omega⟩))⟩
  unfold srcCard anonCard
  simp only [hv] at key ⊢
  cases hp : Card.isPRL (val (columns u' 1 2)) with
  | true => simp [e1, e8, anonField, anonText]
  | false =>
    obtain ⟨k1, k2⟩ := key hp
    simp [e1, e8, k1, k2, anonField, anonText]

theorem card_front_line {file : Str} {n : Nat} {l l' : Str}
    (hl : ∃ t, '\n' ∉ t ∧ (l = t ∨ l = t ++ ['\n']))
    (hl' : ∃ t, '\n' ∉ t ∧ (l' = t ∨ l' = t ++ ['\n']))
    (h : ∀ i, i = 1 ∨ i = 8 ∨ ¬ PRL l ∧ 9 ≤ i ∧ i ≤ 32 → columnAt l i = columnAt l' i) :
    anonCard .noTexts (srcCard ⟨file, n, l⟩) = anonCard .noTexts (srcCard ⟨file, n, l'⟩) := by
  obtain ⟨u, hu, e⟩ := hl
  obtain ⟨u', hu', e'⟩ := hl'
  have g : ∀ i, i = 1 ∨ i = 8 ∨ ¬ PRL u ∧ 9 ≤ i ∧ i ≤ 32 → columnAt u i = columnAt u' i := by
    intro i hi
    have hc : columnAt l i = columnAt u i := by
      rcases e with rfl | rfl
      · rfl
      · exact columnAt_newline u i
    have hc' : columnAt l' i = columnAt u' i := by
      rcases e' with rfl | rfl
      · rfl
      · exact columnAt_newline u' i
    have hp : PRL l ↔ PRL u := by
      rcases e with rfl | rfl
      · rfl
      · exact prl_newline u
    rw [← hc, ← hc']
    exact h i (by rwa [hp])
  have a : srcCard ⟨file, n, l⟩ = srcCard ⟨file, n, u⟩ := by
    rcases e with rfl | rfl
    · rfl
    · exact srcCard_newline file u n
  have a' : srcCard ⟨file, n, l'⟩ = srcCard ⟨file, n, u'⟩ := by
    rcases e' with rfl | rfl
    · rfl
    · exact srcCard_newline file u' n
  rw [a, a']
  exact card_front hu hu' file n g

/-- The first character of a line is in column 1. -/
theorem head_columnAt {l : Str} {c : Char} (h1 : c ≠ '\n') (h2 : c ≠ ' ')
    (hl : ∃ t, '\n' ∉ t ∧ (l = t ∨ l = t ++ ['\n'])) : l.head? = some c ↔ columnAt l 1 = c := by
  obtain ⟨u, hu, e⟩ := hl
  have hc : columnAt l 1 = columnAt u 1 := by
    rcases e with rfl | rfl
    · rfl
    · exact columnAt_newline u 1
  rw [hc]
  unfold columnAt
  rw [filter_noNewline hu]
  cases u with
  | nil =>
    rcases e with rfl | rfl
    · simp [h2.symm]
    · simp [h1.symm, h2.symm]
  | cons x u =>
    rcases e with rfl | rfl <;> simp

/-- Two lines that are read alike: what the cards made of them are, but for the parts left out. -/
inductive LineRel (kp : Keep) : Str → Str → Prop
  | comment (l l' : Str) : LineRel kp ('#' :: l) ('#' :: l')
  | include_ (l l' name : Str) : Word1 l name → Word1 l' name → LineRel kp ('$' :: l) ('$' :: l')
  | blank (l l' : Str) : Blank l → Blank l' → LineRel kp ('$' :: l) ('$' :: l')
  | card (l l' : Str) : l.head? ≠ some '#' → l.head? ≠ some '$' → l'.head? ≠ some '#' →
      l'.head? ≠ some '$' →
      (∀ file n, anonCard kp (srcCard ⟨file, n, l⟩) = anonCard kp (srcCard ⟨file, n, l'⟩)) →
      LineRel kp l l'

/-- The two file systems have the same files but for lines that are read alike. -/
def LinesRel (kp : Keep) (fs fs' : FileSystem) : Prop :=
  ∀ g, (fs g = none ∧ fs' g = none) ∨
    ∃ t t', fs g = some t ∧ fs' g = some t' ∧ List.Forall₂ (LineRel kp) (readlines t) (readlines t')

section
variable {kp : Keep} {α : Type} {f : α → Option α} {v : Bool} {fs fs' : FileSystem}
  {read read' : Str → List (VMsg α) × Py (List PunchCard)}

theorem loopV_rel (hr : ∀ g, ReadRel kp f (read g) (read' g))
    (hn : ∀ g, (fs g).isNone = (fs' g).isNone) (file : Str) (i : Nat) {ls ls' : List Str}
    (h : List.Forall₂ (LineRel kp) ls ls') :
    ReadRel kp f
      (Deck.readLoopV v fs argusClass DEFAULT_WIDTH DEFAULT_FIELDS true read file i ls)
      (Deck.readLoopV v fs' argusClass DEFAULT_WIDTH DEFAULT_FIELDS true read' file i ls') := by
  induction h generalizing i with
  | nil =>
    rw [Deck.readLoopV, Deck.readLoopV]
    exact ⟨rfl, rfl, [], [], rfl, rfl, rfl⟩
  | @cons l l' ls ls' h _ ih =>
    replace ih := ih (i + 1)
    cases h with
    | comment t t' =>
      rw [readLoopV_comment, readLoopV_comment]
      obtain ⟨k1, k2, k3⟩ := ih
      refine ⟨?_, ?_, k3⟩
      · simp only [List.filterMap_append, k1]
      · simp only [List.filter_append, k2]
    | include_ t t' name w w' =>
      rw [readLoopV_include, readLoopV_include, firstWord_ok.2 w, firstWord_ok.2 w']
      simp only
      rw [hn name]
      split
      · exact ⟨rfl, rfl, rfl⟩
      · exact ReadRel.append (hr name) ih
    | blank t t' b b' =>
      have hb : ∀ {t : Str}, Blank t → firstWord t = .error .indexError := by
        intro t ht
        cases hw : firstWord t with
        | error e => rw [(firstWord_error hw).1]
        | ok w =>
          obtain ⟨g1, g2, a, r, -, e, -⟩ := firstWord_ok.1 hw
          cases w with
          | nil => exact absurd rfl g1
          | cons c w =>
            have := ht c (by rw [e]; simp)
            rw [g2 c List.mem_cons_self] at this
            cases this
      rw [readLoopV_include, readLoopV_include, hb b, hb b']
      exact ⟨rfl, rfl, rfl⟩
    | card _ _ g1 g2 g1' g2' hc =>
      obtain ⟨c, k, e⟩ := readLoopV_card (v := v) (fs := fs) read file i l ls g1 g2
      obtain ⟨c', k', e'⟩ := readLoopV_card (v := v) (fs := fs') read' file i l' ls' g1' g2'
      rw [e, e']
      exact ReadRel.cons k k' (hc _ _) ih

theorem linesRel_isNone (h : LinesRel kp fs fs') (g : Str) : (fs g).isNone = (fs' g).isNone := by
  rcases h g with ⟨h1, h2⟩ | ⟨t, t', h1, h2, -⟩ <;> rw [h1, h2]; rfl

theorem readV_rel (h : LinesRel kp fs fs') (fuel : Nat) (g : Str) :
    ReadRel kp f (Deck.readSourceV v fs argusClass DEFAULT_WIDTH DEFAULT_FIELDS fuel true g)
      (Deck.readSourceV v fs' argusClass DEFAULT_WIDTH DEFAULT_FIELDS fuel true g) := by
  induction fuel generalizing g with
  | zero => exact ⟨rfl, rfl, rfl⟩
  | succ fuel ih =>
    rw [Deck.readSourceV, Deck.readSourceV]
    rcases h g with ⟨h1, h2⟩ | ⟨t, t', h1, h2, he⟩
    · rw [h1, h2]; exact ⟨rfl, rfl, rfl⟩
    · rw [h1, h2]
      obtain ⟨k1, k2, k3⟩ := loopV_rel (v := v) ih (linesRel_isNone h) g 0 he
      refine ⟨?_, ?_, k3⟩
      · simp only [List.filterMap_append, k1]
      · simp only [List.filter_append, k2]

end

theorem deckV_rel {kp : Keep} {v : Bool} {fs fs' : FileSystem} (h : LinesRel kp fs fs') (fuel : Nat)
    (g : Str) : SameDeck kp v fs fs' fuel fuel g g :=
  deckV_of_read fuel g fun _ _ => readV_rel h fuel g

/-- Lines related one by one. -/
theorem linesRel_of {kp : Keep} {R : Str → Str → Prop} {fs fs' : FileSystem}
    (hR : ∀ l l', (∃ t, '\n' ∉ t ∧ (l = t ∨ l = t ++ ['\n'])) →
      (∃ t, '\n' ∉ t ∧ (l' = t ∨ l' = t ++ ['\n'])) → R l l' → LineRel kp l l')
    (h : ∀ g, (fs g = none ∧ fs' g = none) ∨
      ∃ t t', fs g = some t ∧ fs' g = some t' ∧ List.Forall₂ R (readlines t) (readlines t')) :
    LinesRel kp fs fs' := by
  intro g
  rcases h g with h | ⟨t, t', h1, h2, h3⟩
  · exact Or.inl h
  · refine Or.inr ⟨t, t', h1, h2, ?_⟩
    have key : ∀ {ls ls' : List Str}, List.Forall₂ R ls ls' →
        (∀ l ∈ ls, ∃ t, '\n' ∉ t ∧ (l = t ∨ l = t ++ ['\n'])) →
        (∀ l ∈ ls', ∃ t, '\n' ∉ t ∧ (l = t ∨ l = t ++ ['\n'])) → List.Forall₂ (LineRel kp) ls ls' := by
      intro ls ls' h
      induction h with
      | nil => intro _ _; exact .nil
      | cons h _ ih =>
        intro k k'
        exact .cons (hR _ _ (k _ List.mem_cons_self) (k' _ List.mem_cons_self) h)
          (ih (fun x hx => k x (List.mem_cons_of_mem _ hx)) fun x hx => k' x (List.mem_cons_of_mem _ hx))
    exact key h3 (fun l hl => readlines_line hl) fun l hl => readlines_line hl

/-- The first characters of two cards with the same column 1. -/
theorem heads_card {l l' : Str} (hl : ∃ t, '\n' ∉ t ∧ (l = t ∨ l = t ++ ['\n']))
    (hl' : ∃ t, '\n' ∉ t ∧ (l' = t ∨ l' = t ++ ['\n'])) (c1 : columnAt l 1 ≠ '#')
    (c2 : columnAt l 1 ≠ '$') (e1 : columnAt l 1 = columnAt l' 1) :
    l.head? ≠ some '#' ∧ l.head? ≠ some '$' ∧ l'.head? ≠ some '#' ∧ l'.head? ≠ some '$' :=
  ⟨fun e => c1 ((head_columnAt (by decide) (by decide) hl).1 e),
    fun e => c2 ((head_columnAt (by decide) (by decide) hl).1 e),
    fun e => c1 (e1.trans ((head_columnAt (by decide) (by decide) hl').1 e)),
    fun e => c2 (e1.trans ((head_columnAt (by decide) (by decide) hl').1 e))⟩

theorem deckV_front {v : Bool} {fs fs' : FileSystem} (h : SameFronts fs fs') (fuel : Nat) (g : Str) :
    SameDeck .noTexts v fs fs' fuel fuel g g := by
  refine deckV_rel (linesRel_of (fun l l' hl hl' hr => ?_) h) fuel g
  cases hr with
  | comment => exact .comment _ _
  | include_ _ _ _ w w' => exact .include_ _ _ _ w w'
  | blank _ _ b b' => exact .blank _ _ b b'
  | card _ _ c1 c2 hc =>
    obtain ⟨g1, g2, g3, g4⟩ := heads_card hl hl' c1 c2 (hc 1 (Or.inl rfl))
    exact .card _ _ g1 g2 g3 g4 fun _ _ => card_front_line hl hl' hc

end H800
