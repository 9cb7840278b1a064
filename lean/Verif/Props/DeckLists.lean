import Verif.Props.Decks

/-!
Properties C128 and C129: the lists of a deck and the layout of a card.
-/

namespace H800

open Spec

/-- C128: entry k of the lines, fields, stripped fields and records of a deck belongs to card k. -/
def C128_statement : Prop :=
  ∀ (fs : FileSystem) (fuel : Nat) (lines : Option (List Str)) (file : Option Str) (cls : CardClass)
    (d : Deck), (cls = argusClass ∨ cls = punchClass) →
    Deck.init fs fuel lines file DEFAULT_WIDTH DEFAULT_FIELDS cls = .ok d →
    d.lines = d.cards.map (·.line) ∧ d.cards.mapM PunchCard.fields = .ok d.fields ∧
      d.cards.mapM PunchCard.strippedFields = .ok d.strippedFields ∧
      d.cards.mapM PunchCard.record = .ok d.records

/-- C128 fails: the lines of a deck made from a list include its comments. -/
theorem C128_refuted : ¬ C128_statement := by
  intro h
  have := (h (fun _ => none) 0 (some [py "# c", py " A"]) none punchClass _ (.inr rfl) rfl).1
  exact absurd this (by decide)

theorem bodies_maps {cards : List PunchCard} {bs : List CardBody}
    (h : cards.mapM PunchCard.getBody = .ok bs) :
    cards.mapM PunchCard.fields = .ok (bs.map (·.fields)) ∧
      cards.mapM PunchCard.strippedFields = .ok (bs.map (·.stripped)) ∧
      cards.mapM PunchCard.record = .ok (bs.map (·.record)) := by
  induction cards generalizing bs with
  | nil => rw [mapM_nil_ok.1 h]; exact ⟨rfl, rfl, rfl⟩
  | cons c cs ih =>
    obtain ⟨b, bs, h1, h2, rfl⟩ := mapM_cons_ok.1 h
    obtain ⟨i1, i2, i3⟩ := ih h2
    refine ⟨mapM_cons_ok.2 ⟨_, _, ?_, i1, rfl⟩, mapM_cons_ok.2 ⟨_, _, ?_, i2, rfl⟩,
      mapM_cons_ok.2 ⟨_, _, ?_, i3, rfl⟩⟩
    · rw [PunchCard.fields, h1]; rfl
    · rw [PunchCard.strippedFields, h1]; rfl
    · rw [PunchCard.record, h1]; rfl

/-- C128, the part that holds for every deck, of any layout and card class: fields, stripped fields
and records run parallel to the cards; for a deck read from a file so do the lines. -/
theorem C128_parallel_partial (fs : FileSystem) (fuel : Nat) (lines : Option (List Str))
    (file : Option Str) (width : Int) (fields : List Int) (cls : CardClass) (d : Deck)
    (h : Deck.init fs fuel lines file width fields cls = .ok d) :
    d.cards.mapM PunchCard.fields = .ok d.fields ∧
      d.cards.mapM PunchCard.strippedFields = .ok d.strippedFields ∧
      d.cards.mapM PunchCard.record = .ok d.records ∧
      (∀ name, file = some name → name ≠ [] → d.lines = d.cards.map (·.line)) ∧
      ((file = none ∨ file = some []) → lines = some d.lines) := by
  have key : ∀ ls cards, Deck.collect ls cards = .ok d →
      d.lines = ls ∧ d.cards = cards ∧ d.cards.mapM PunchCard.fields = .ok d.fields ∧
      d.cards.mapM PunchCard.strippedFields = .ok d.strippedFields ∧
      d.cards.mapM PunchCard.record = .ok d.records := by
    intro ls cards hc
    obtain ⟨h1, h2, bs, h3, h4, h5, h6⟩ := collect_cards hc
    obtain ⟨b1, b2, b3⟩ := bodies_maps h3
    rw [h2, h4, h5, h6]
    exact ⟨h1, rfl, b1, b2, b3⟩
  unfold Deck.init at h
  split at h
  · cases h
  · rename_i c cs
    cases hr : Deck.readSource fs cls width fields fuel true (c :: cs) with
    | error e => rw [hr] at h; cases h
    | ok cards =>
      rw [hr, py_bind_ok] at h
      obtain ⟨k1, k2, k3, k4, k5⟩ := key _ _ h
      refine ⟨k3, k4, k5, fun _ _ _ => by rw [k1, k2], ?_⟩
      rintro (e | e) <;> cases e
  · cases h
  · rename_i ls hne
    cases hr : Deck.fromLines cls width fields file 0 ls with
    | error e => rw [hr] at h; cases h
    | ok cards =>
      rw [hr, py_bind_ok] at h
      obtain ⟨k1, k2, k3, k4, k5⟩ := key _ _ h
      refine ⟨k3, k4, k5, ?_, fun _ => by rw [k1]⟩
      rintro name rfl hn
      cases name with
      | nil => exact absurd rfl hn
      | cons c cs => exact absurd rfl (hne c cs)

/-- C128, when the lines of a deck made from a list run parallel to its cards: exactly when no line
is a comment or contains a newline. -/
theorem C128_lines_partial (fs : FileSystem) (fuel : Nat) (cls : CardClass)
    (hcls : cls = argusClass ∨ cls = punchClass) (file : Option Str)
    (hfile : file = none ∨ file = some []) (lines : List Str) (d : Deck)
    (h : Deck.init fs fuel (some lines) file DEFAULT_WIDTH DEFAULT_FIELDS cls = .ok d) :
    d.lines = d.cards.map (·.line) ↔ ∀ l ∈ lines, l.head? ≠ some '#' ∧ '\n' ∉ l := by
  obtain ⟨d', h', h1, -, h2, -⟩ := C56_lines fs fuel cls hcls file hfile lines
  rw [h'] at h
  cases h
  have e : d.cards.map (·.line) =
      (lines.filter (fun l => l.head? ≠ some '#')).map (fun l => l.filter (· ≠ '\n')) := by
    have := congrArg (List.map Prod.fst) h2
    rw [List.map_map, List.map_map] at this
    refine this.trans ?_
    unfold numbered
    generalize 1 = i
    clear h1 h2 h' this
    induction lines generalizing i with
    | nil => rfl
    | cons l ls ih =>
      rw [List.zipIdx_cons]
      by_cases hl : l.head? = some '#'
      · rw [List.filter_cons_of_neg (by simpa using hl), List.filter_cons_of_neg (by simpa using hl)]
        exact ih _
      · rw [List.filter_cons_of_pos (by simpa using hl), List.filter_cons_of_pos (by simpa using hl),
          List.map_cons, List.map_cons, ih]
        rfl
  rw [h1, e]
  constructor
  · intro heq
    have hlen := congrArg List.length heq
    rw [List.length_map] at hlen
    have hall : ∀ l ∈ lines, l.head? ≠ some '#' := by
      have := List.filter_sublist (p := fun l : Str => decide (l.head? ≠ some '#')) (l := lines)
      have hf := this.eq_of_length hlen.symm
      rw [List.filter_eq_self] at hf
      intro l hl
      simpa using hf l hl
    have hf : lines.filter (fun l => l.head? ≠ some '#') = lines :=
      List.filter_eq_self.2 fun l hl => by simpa using hall l hl
    rw [hf] at heq
    intro l hl
    refine ⟨hall l hl, fun hn => ?_⟩
    have hid : ∀ x ∈ lines, x = x.filter (· ≠ '\n') := by
      clear hlen hall hf h1 h2 h' e hl
      induction lines with
      | nil => simp
      | cons x xs ih =>
        rw [List.map_cons, List.cons.injEq] at heq
        intro y hy
        rcases List.mem_cons.1 hy with rfl | hy
        · exact heq.1
        · exact ih heq.2 y hy
    have := hid l hl
    rw [this] at hn
    simpa using List.of_mem_filter hn
  · intro hall
    have hf : lines.filter (fun l => l.head? ≠ some '#') = lines :=
      List.filter_eq_self.2 fun l hl => by simpa using (hall l hl).1
    rw [hf]
    symm
    calc lines.map (fun l => l.filter (· ≠ '\n')) = lines.map id := by
          refine List.map_congr_left fun l hl => List.filter_eq_self.2 fun c hc => ?_
          simp only [decide_eq_true_eq]
          rintro rfl
          exact (hall l hl).2 hc
      _ = lines := List.map_id _

/-- A list of lines that meets the condition, and one that does not. -/
example : (∀ l ∈ [py " A", py " B"], l.head? ≠ some '#' ∧ '\n' ∉ l) ∧
    ¬ ∀ l ∈ [py " A\n", py " B"], l.head? ≠ some '#' ∧ '\n' ∉ l := by decide

/-- C129: the layout of a card starts its fields at the given columns, each field reaching up to the
next and the last one to the width; a comment card has none. -/
theorem C129_layout (line : Str) (width : Int) (cols : List Int) (names : List Str)
    (fn : Option Str) (n : Int) (c : PunchCard)
    (h : PunchCard.init line width cols names fn n = .ok c ∨
      Card.init line width cols names fn n = .ok c) :
    (line.head? = some '#' → c.layout = []) ∧
    (line.head? ≠ some '#' → c.layout.map Prod.fst = cols ∧
      (∀ i (hi : i + 1 < c.layout.length),
        c.layout[i].1 + c.layout[i].2 = (c.layout[i + 1]).1) ∧
      (∀ p, c.layout.getLast? = some p → p.1 + p.2 = width + 1)) := by
  have key : ∀ cols : List Int, (PunchCard.layoutOf width cols).map Prod.fst = cols ∧
      (∀ i (hi : i + 1 < (PunchCard.layoutOf width cols).length),
        (PunchCard.layoutOf width cols)[i].1 + (PunchCard.layoutOf width cols)[i].2 =
          ((PunchCard.layoutOf width cols)[i + 1]).1) ∧
      (∀ p, (PunchCard.layoutOf width cols).getLast? = some p → p.1 + p.2 = width + 1) := by
    intro cols
    induction cols with
    | nil => exact ⟨rfl, fun i hi => absurd hi (by simp [PunchCard.layoutOf]), by
        simp [PunchCard.layoutOf]⟩
    | cons a t ih =>
      cases t with
      | nil =>
        refine ⟨rfl, fun i hi => absurd hi (by simp [PunchCard.layoutOf]), ?_⟩
        intro p hp
        simp only [PunchCard.layoutOf, List.getLast?_singleton, Option.some.injEq] at hp
        subst hp
        show a + (width - a + 1) = width + 1
        omega
      | cons b t =>
        obtain ⟨i1, i2, i3⟩ := ih
        refine ⟨by rw [PunchCard.layoutOf, List.map_cons, i1], ?_, ?_⟩
        · intro i hi
          cases i with
          | zero =>
            have : ((PunchCard.layoutOf width (b :: t)).map Prod.fst)[0]? = some b := by
              rw [i1]; rfl
            rw [List.getElem?_map, Option.map_eq_some_iff] at this
            obtain ⟨q, hq, hb⟩ := this
            obtain ⟨hlt, hq⟩ := List.getElem?_eq_some_iff.1 hq
            simp only [PunchCard.layoutOf, List.getElem_cons_zero, List.getElem_cons_succ]
            rw [hq, hb]
            omega
          | succ i =>
            simp only [PunchCard.layoutOf, List.length_cons] at hi
            simp only [PunchCard.layoutOf, List.getElem_cons_succ]
            exact i2 i (by omega)
        · intro p hp
          apply i3 p
          rw [PunchCard.layoutOf, List.getLast?_cons] at hp
          cases hl : (PunchCard.layoutOf width (b :: t)).getLast? with
          | none =>
            rw [List.getLast?_eq_none_iff] at hl
            rw [hl] at i1
            cases i1
          | some q => rw [hl] at hp; simpa using hp
  have punch : ∀ c, PunchCard.init line width cols names fn n = .ok c →
      (line.head? = some '#' → c.layout = []) ∧
      (line.head? ≠ some '#' → c.layout = PunchCard.layoutOf width cols) := by
    intro c hc
    unfold PunchCard.init at hc
    by_cases hl : line.head? = some '#'
    · rw [if_pos (startsWith_iff.2 hl)] at hc
      cases hc
      exact ⟨fun _ => rfl, fun e => absurd hl e⟩
    · rw [if_neg (fun e => hl (startsWith_iff.1 e))] at hc
      simp only at hc
      split at hc
      · cases hc
      · cases hc
        exact ⟨fun e => absurd e hl, fun _ => rfl⟩
  have all : (line.head? = some '#' → c.layout = []) ∧
      (line.head? ≠ some '#' → c.layout = PunchCard.layoutOf width cols) := by
    rcases h with h | h
    · exact punch c h
    · unfold Card.init at h
      split at h
      · cases h
      · rename_i c' hc'
        split at h
        · cases h
        · split at h
          · cases h
          · cases h
            exact punch c' hc'
  refine ⟨all.1, fun hl => ?_⟩
  have gen : ∀ lay, lay = PunchCard.layoutOf width cols → lay.map Prod.fst = cols ∧
      (∀ i (hi : i + 1 < lay.length), lay[i].1 + lay[i].2 = (lay[i + 1]).1) ∧
      (∀ p, lay.getLast? = some p → p.1 + p.2 = width + 1) := by
    rintro _ rfl
    exact key cols
  exact gen _ (all.2 hl)

/-- C129: with the default layout these are the columns and widths documented in punchcard.py 21. -/
theorem C129_default (line : Str) (hl : line.head? ≠ some '#') (fn : Option Str) (n : Int)
    (cls : CardClass) (hcls : cls = argusClass ∨ cls = punchClass) :
    ∃ c, cls line DEFAULT_WIDTH DEFAULT_FIELDS fn n = .ok c ∧
      c.layout = [(1, 1), (2, 6), (8, 1), (9, 11), (20, 13), (33, 14), (47, 14), (61, 15), (76, 5),
        (81, 40)] := by
  rcases hcls with rfl | rfl
  · exact ⟨_, argus_eq line hl fn n, rfl⟩
  · exact ⟨_, punch_eq line hl fn n, rfl⟩

/-- A card of another layout. -/
example : ∃ c, PunchCard.init (py "ABCDE") 5 [1, 2, 4] [py "a", py "b", py "c"] none 7 = .ok c ∧
    c.layout = [(1, 1), (2, 2), (4, 2)] := ⟨_, rfl, rfl⟩

end H800
