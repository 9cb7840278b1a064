import Verif.Props.Cards
import Verif.Props.Decks
import Verif.Spec.Reread

/-!
Lemmas about reading a deck again.
-/

namespace H800

open Spec

/-- Every line of a file is newline-free text, perhaps followed by one newline. -/
theorem readlines_line {text l : Str} (h : l ∈ readlines text) :
    ∃ t, '\n' ∉ t ∧ (l = t ∨ l = t ++ ['\n']) := by
  induction text generalizing l with
  | nil => cases h
  | cons c s ih =>
    rw [readlines] at h
    by_cases hc : c = '\n'
    · rw [if_pos hc] at h
      rcases List.mem_cons.1 h with rfl | h
      · exact ⟨[], by simp, Or.inr (by rw [hc]; rfl)⟩
      · exact ih h
    · rw [if_neg hc] at h
      cases hr : readlines s with
      | nil =>
        rw [hr] at h
        rw [List.mem_singleton.1 h]
        exact ⟨[c], by simpa using fun e => hc e.symm, Or.inl rfl⟩
      | cons m ms =>
        rw [hr] at h ih
        rcases List.mem_cons.1 h with rfl | h
        · obtain ⟨t, h1, h2⟩ := ih List.mem_cons_self
          refine ⟨c :: t, ?_, ?_⟩
          · simp only [List.mem_cons, not_or]
            exact ⟨fun e => hc e.symm, h1⟩
          · rcases h2 with rfl | rfl
            · exact Or.inl rfl
            · exact Or.inr rfl
        · exact ih (List.mem_cons_of_mem _ h)

theorem readlines_append {l s : Str} (h : '\n' ∉ l) :
    readlines (l ++ '\n' :: s) = (l ++ ['\n']) :: readlines s := by
  induction l with
  | nil => simp [readlines]
  | cons c l ih =>
    simp only [List.mem_cons, not_or] at h
    rw [List.cons_append, readlines, if_neg (fun e => h.1 e.symm), ih h.2]
    rfl

/-- Reading lines back from the file they were printed to. -/
theorem readlines_join {ls : List Str} (h : ∀ l ∈ ls, '\n' ∉ l) (hne : ls ≠ []) :
    readlines (joinWith '\n' ls ++ ['\n']) = ls.map (· ++ ['\n']) := by
  induction ls with
  | nil => exact absurd rfl hne
  | cons l ls ih =>
    cases ls with
    | nil =>
      rw [joinWith, readlines_append (h l List.mem_cons_self)]
      rfl
    | cons m ls =>
      rw [joinWith, List.append_assoc, List.cons_append, readlines_append (h l List.mem_cons_self),
        ih (fun x hx => h x (List.mem_cons_of_mem _ hx)) (by simp)]
      rfl

/-- Without include lines, a file is read like a list of lines. -/
theorem readLoop_noinclude {fs : FileSystem} {cls : CardClass} {width : Int} {fields : List Int}
    (r : Bool) (read : Str → Py (List PunchCard)) (file : Str) (i : Nat) {ls : List Str}
    (h : ∀ l ∈ ls, l.head? ≠ some '$') :
    Deck.readLoop fs cls width fields r read file i ls =
      Deck.fromLines cls width fields (some file) i ls := by
  induction ls generalizing i with
  | nil => rfl
  | cons l ls ih =>
    have hl := h l List.mem_cons_self
    have e2 : startsWith l '$' = false := by
      rw [Bool.eq_false_iff]; exact fun e => hl (startsWith_iff.1 e)
    rw [Deck.readLoop, Deck.fromLines, ih (i + 1) fun x hx => h x (List.mem_cons_of_mem _ hx), e2]
    simp only [Bool.false_eq_true, if_false]

/-- Two cards agree but for where they come from. -/
def SameCard (c c' : PunchCard) : Prop :=
  c.line = c'.line ∧ c.strippedFields = c'.strippedFields ∧
    ∃ r r', c.record = .ok r ∧ c'.record = .ok r' ∧ SameRecord r r'

theorem SameCard.symm {c c' : PunchCard} (h : SameCard c c') : SameCard c' c := by
  obtain ⟨h1, h2, r, r', h3, h4, h5⟩ := h
  exact ⟨h1.symm, h2.symm, r', r, h4, h3, fun k hk => (h5 k hk).symm⟩

theorem SameCard.trans {c c' c'' : PunchCard} (h : SameCard c c') (h' : SameCard c' c'') :
    SameCard c c'' := by
  obtain ⟨h1, h2, r, r', h3, h4, h5⟩ := h
  obtain ⟨g1, g2, q, q', g3, g4, g5⟩ := h'
  rw [h4] at g3
  cases g3
  exact ⟨h1.trans g1, h2.trans g2, r, q', h3, g4, fun k hk => (h5 k hk).trans (g5 k hk)⟩

theorem dget_numEntry (n : Int) (d : Dict Str RVal) (k : Str) (hk : k ≠ py "linenum") :
    dget (numEntry n ++ d) k = dget d k := by
  unfold numEntry
  split
  · rw [List.singleton_append, dget, if_neg]
    exact fun e => hk e.symm
  · rfl

theorem sameRecord_punch (t : Str) (n n' : Int) :
    SameRecord (punchRecord t n) (punchRecord t n') := by
  intro k hk
  unfold punchRecord
  rw [dget_numEntry _ _ _ hk, dget_numEntry _ _ _ hk]

theorem sameRecord_argus (t : Str) (n n' : Int) :
    SameRecord (argusRecord t n) (argusRecord t n') := by
  intro k hk
  unfold argusRecord
  split
  · rw [dget_numEntry _ _ _ hk, dget_numEntry _ _ _ hk]
  · unfold punchRecord
    rw [List.append_assoc, List.append_assoc, dget_numEntry _ _ _ hk, dget_numEntry _ _ _ hk]

section

variable {cls : CardClass} (hcls : cls = argusClass ∨ cls = punchClass)
include hcls

theorem same_num {t : Str} (hh : t.head? ≠ some '#') {fn fn' : Option Str} {n n' : Int}
    {c c' : PunchCard} (hc : cls t DEFAULT_WIDTH DEFAULT_FIELDS fn n = .ok c)
    (hc' : cls t DEFAULT_WIDTH DEFAULT_FIELDS fn' n' = .ok c') : SameCard c c' := by
  rcases hcls with rfl | rfl
  · rw [argus_eq t hh] at hc hc'
    cases hc; cases hc'
    exact ⟨rfl, rfl, _, _, rfl, rfl, sameRecord_argus t n n'⟩
  · rw [punch_eq t hh] at hc hc'
    cases hc; cases hc'
    exact ⟨rfl, rfl, _, _, rfl, rfl, sameRecord_punch t n n'⟩

theorem same_newline {t : Str} (ht : '\n' ∉ t) (hh : t.head? ≠ some '#') {fn fn' : Option Str}
    {n n' : Int} {c c' : PunchCard} (hc : cls t DEFAULT_WIDTH DEFAULT_FIELDS fn n = .ok c)
    (hc' : cls (t ++ ['\n']) DEFAULT_WIDTH DEFAULT_FIELDS fn' n' = .ok c') : SameCard c c' := by
  have h := C87_newline t ht hh fn fn' n'
  have key : ∃ x x', cls t DEFAULT_WIDTH DEFAULT_FIELDS fn n' = .ok x ∧
      cls (t ++ ['\n']) DEFAULT_WIDTH DEFAULT_FIELDS fn' n' = .ok x' ∧
      x'.line = t ∧ x.line = t ∧ x'.record = x.record ∧ x'.strippedFields = x.strippedFields := by
    rcases hcls with rfl | rfl
    · exact h.1
    · exact h.2
  obtain ⟨x, x', h1, h2, h3, h4, h5, h6⟩ := key
  rw [h2] at hc'
  cases hc'
  obtain ⟨g1, g2, r, r', g3, g4, g5⟩ := same_num hcls hh hc h1
  exact ⟨by rw [g1, h4, h3], by rw [g2, h6], r, r', g3, by rw [h5, g4], g5⟩

/-- The line, with or without its newline, gives the same card. -/
theorem same_line {t l l' : Str} (ht : '\n' ∉ t) (hh : t.head? ≠ some '#')
    (hl : l = t ∨ l = t ++ ['\n']) (hl' : l' = t ∨ l' = t ++ ['\n']) {fn fn' : Option Str}
    {n n' : Int} {c c' : PunchCard} (hc : cls l DEFAULT_WIDTH DEFAULT_FIELDS fn n = .ok c)
    (hc' : cls l' DEFAULT_WIDTH DEFAULT_FIELDS fn' n' = .ok c') : SameCard c c' := by
  obtain ⟨b, hb⟩ := total_of hcls t none 0 hh
  have base : ∀ {l : Str} {fn : Option Str} {n : Int} {c : PunchCard}, (l = t ∨ l = t ++ ['\n']) →
      cls l DEFAULT_WIDTH DEFAULT_FIELDS fn n = .ok c → SameCard b c := by
    intro l fn n c hl hc
    rcases hl with rfl | rfl
    · exact same_num hcls hh hb hc
    · exact same_newline hcls ht hh hb hc
  exact (base hl hc).symm.trans (base hl' hc')

/-- Cards made from the same texts. -/
theorem same_fromLines {ts ls : List Str} {cards cards' : List PunchCard} {fn : Option Str} {i : Nat}
    (ht : ∀ t ∈ ts, '\n' ∉ t ∧ t.head? ≠ some '#')
    (hls : List.Forall₂ (fun t l => l = t ∨ l = t ++ ['\n']) ts ls)
    (hc : List.Forall₂ (fun t c => ∃ l fn n, (l = t ∨ l = t ++ ['\n']) ∧
      cls l DEFAULT_WIDTH DEFAULT_FIELDS fn n = .ok c) ts cards)
    (hc' : Deck.fromLines cls DEFAULT_WIDTH DEFAULT_FIELDS fn i ls = .ok cards') :
    List.Forall₂ SameCard cards cards' := by
  induction hls generalizing cards cards' i with
  | nil => cases hc; cases hc'; exact .nil
  | @cons t l ts ls hl _ ih =>
    cases hc with
    | @cons _ c _ cs h1 h2 =>
      obtain ⟨m, fm, k, hm, hk⟩ := h1
      obtain ⟨t1, t2⟩ := ht t List.mem_cons_self
      have e : l.head? ≠ some '#' := by
        rcases hl with rfl | rfl
        · exact t2
        · cases t with
          | nil => decide
          | cons x t => exact t2
      have es : startsWith l '#' = false := by
        rw [Bool.eq_false_iff]; exact fun h => e (startsWith_iff.1 h)
      rw [Deck.fromLines, es] at hc'
      simp only [Bool.false_eq_true, if_false] at hc'
      cases hx : cls l DEFAULT_WIDTH DEFAULT_FIELDS fn (i + 1) with
      | error e => rw [hx] at hc'; cases hc'
      | ok x =>
        rw [hx] at hc'
        cases hy : Deck.fromLines cls DEFAULT_WIDTH DEFAULT_FIELDS fn (i + 1) ls with
        | error e => rw [hy] at hc'; cases hc'
        | ok y =>
          rw [hy] at hc'
          cases hc'
          exact .cons (same_line hcls t1 t2 hm hl hk hx)
            (ih (fun t h => ht t (List.mem_cons_of_mem _ h)) h2 hy)

end

theorem sameCard_body {cards cards' : List PunchCard} (h : List.Forall₂ SameCard cards cards') :
    ∀ c ∈ cards', ∃ b, c.body = some b := by
  induction h with
  | nil => simp
  | @cons x y xs ys h1 _ ih =>
    intro c hc
    rcases List.mem_cons.1 hc with rfl | hc
    · obtain ⟨-, -, r, r', -, h4, -⟩ := h1
      cases hb : c.body with
      | none =>
        unfold PunchCard.record PunchCard.getBody at h4
        rw [hb] at h4
        cases h4
      | some b => exact ⟨b, rfl⟩
    · exact ih c hc

/-- Decks collected from agreeing cards agree. -/
theorem sameCards_collect {cards cards' : List PunchCard} {ls ls' : List Str} {d d' : Deck}
    (h : List.Forall₂ SameCard cards cards') (hd : Deck.collect ls cards = .ok d)
    (hd' : Deck.collect ls' cards' = .ok d') : SameCards d d' := by
  obtain ⟨-, e1, bs, hb, -, e2, e3⟩ := collect_cards hd
  obtain ⟨-, e1', bs', hb', -, e2', e3'⟩ := collect_cards hd'
  unfold SameCards
  rw [e1, e1', e2, e2', e3, e3']
  clear e1 e1' e2 e2' e3 e3' hd hd'
  induction h generalizing bs bs' with
  | nil =>
    rw [mapM_nil_ok.1 hb, mapM_nil_ok.1 hb']
    exact ⟨rfl, rfl, .nil⟩
  | @cons c c' cs cs' h1 _ ih =>
    obtain ⟨b, bt, g1, g2, rfl⟩ := mapM_cons_ok.1 hb
    obtain ⟨b', bt', g1', g2', rfl⟩ := mapM_cons_ok.1 hb'
    obtain ⟨i1, i2, i3⟩ := ih bt g2 bt' g2'
    obtain ⟨k1, k2, r, r', k3, k4, k5⟩ := h1
    unfold PunchCard.record at k3 k4
    unfold PunchCard.strippedFields at k2
    rw [g1] at k3 k2
    rw [g1'] at k4 k2
    have k2' : b.stripped = b'.stripped := Except.ok.inj k2
    cases k3; cases k4
    refine ⟨?_, ?_, .cons k5 i3⟩
    · rw [List.map_cons, List.map_cons, k1, i1]
    · rw [List.map_cons, List.map_cons, k2', i2]

end H800
