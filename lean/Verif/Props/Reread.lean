import Verif.Lemmas.Reread

/-!
Properties C108 and C109: reading a deck again from its own text, and from a file instead of a list.
-/

namespace H800

open Spec

/-- The texts of the cards of a file deck and what they are made from. -/
theorem file_texts {fs : FileSystem} {fuel : Nat} {cls : CardClass}
    (hcls : cls = argusClass ∨ cls = punchClass) {lines : Option (List Str)} {file : Str}
    (hf : file ≠ []) {d : Deck}
    (h : Deck.init fs fuel lines (some file) DEFAULT_WIDTH DEFAULT_FIELDS cls = .ok d) :
    Deck.collect (d.cards.map (·.line)) d.cards = .ok d ∧
      (∀ t ∈ d.cards.map (·.line), '\n' ∉ t ∧ t.head? ≠ some '#' ∧ t.head? ≠ some '$') ∧
      List.Forall₂ (fun t c => ∃ l fn n, (l = t ∨ l = t ++ ['\n']) ∧
        cls l DEFAULT_WIDTH DEFAULT_FIELDS fn n = .ok c) (d.cards.map (·.line)) d.cards := by
  obtain ⟨out, ho, hm⟩ := C57_expansion fs fuel cls _ _ lines file hf d h
  have hcol : Deck.collect (d.cards.map (·.line)) d.cards = .ok d := by
    cases file with
    | nil => exact absurd rfl hf
    | cons c cs =>
      unfold Deck.init at h
      simp only at h
      cases hr : Deck.readSource fs cls DEFAULT_WIDTH DEFAULT_FIELDS fuel true (c :: cs) with
      | error e => rw [hr] at h; cases lines <;> cases h
      | ok cards =>
        rw [hr] at h
        have : Deck.collect (cards.map (·.line)) cards = .ok d := by cases lines <;> exact h
        rw [(collect_cards this).2.1]
        exact this
  refine ⟨hcol, ?_⟩
  have hsrc := expands_src ho
  clear hcol h ho
  generalize d.cards = cards at hm ⊢
  induction out generalizing cards with
  | nil => rw [mapM_nil_ok.1 hm]; exact ⟨by simp, .nil⟩
  | cons s out ih =>
    obtain ⟨c, cs, h1, h2, rfl⟩ := mapM_cons_ok.1 hm
    obtain ⟨i1, i2⟩ := ih (fun x hx => hsrc x (List.mem_cons_of_mem _ hx)) cs h2
    obtain ⟨text, -, -, hget, hne, hnd⟩ := hsrc s List.mem_cons_self
    obtain ⟨t, t1, t2⟩ := readlines_line (List.mem_of_getElem? hget)
    obtain ⟨k1, -, -, -⟩ := card_keeps hcls hne h1
    have hfil : t.filter (· ≠ '\n') = t := by
      rw [List.filter_eq_self]
      intro c hc
      simp only [decide_eq_true_eq]
      rintro rfl; exact t1 hc
    have hct : c.line = t := by
      rw [k1]
      rcases t2 with e | e
      · rw [e, hfil]
      · rw [e, List.filter_append, hfil]; simp
    have hhd : ∀ x : Char, s.text.head? ≠ some x → t.head? ≠ some x := by
      intro x hx e
      apply hx
      rcases t2 with e' | e'
      · rw [e']; exact e
      · rw [e']
        cases t with
        | nil => cases e
        | cons y t => exact e
    refine ⟨?_, ?_⟩
    · intro u hu
      rcases List.mem_cons.1 hu with rfl | hu
      · show '\n' ∉ c.line ∧ c.line.head? ≠ some '#' ∧ c.line.head? ≠ some '$'
        rw [hct]; exact ⟨t1, hhd _ hne, hhd _ hnd⟩
      · exact i1 u hu
    · rw [List.map_cons, hct]
      exact .cons ⟨s.text, some s.file, s.num, t2, h1⟩ i2

/-- C108: the text of a deck read from a file, split into lines, makes a deck with the same cards,
numbered from 1. -/
theorem C108_lines (fs fs' : FileSystem) (fuel fuel' : Nat) (cls : CardClass)
    (hcls : cls = argusClass ∨ cls = punchClass) (lines : Option (List Str)) (file : Str)
    (hf : file ≠ []) (d : Deck)
    (h : Deck.init fs fuel lines (some file) DEFAULT_WIDTH DEFAULT_FIELDS cls = .ok d)
    (hne : d.cards ≠ []) :
    ∃ d', Deck.init fs' fuel' (some (splitLines d.toStr)) none DEFAULT_WIDTH DEFAULT_FIELDS cls =
        .ok d' ∧ SameCards d d' ∧ d'.toStr = d.toStr ∧
      d'.cards.map (·.linenum) = (List.range d.cards.length).map fun (i : Nat) => (i : Int) + 1 := by
  obtain ⟨hcol, ht, hall⟩ := file_texts hcls hf h
  have hsp : splitLines d.toStr = d.cards.map (·.line) :=
    splitLines_join (fun l hl => (ht l hl).1) (by simpa using hne)
  obtain ⟨d', hd', -, -, hk, -⟩ := C56_lines fs' fuel' cls hcls none (Or.inl rfl)
    (splitLines d.toStr)
  have hsame : SameCards d d' := by
    have hd2 := hd'
    unfold Deck.init at hd2
    simp only at hd2
    cases hr : Deck.fromLines cls DEFAULT_WIDTH DEFAULT_FIELDS none 0 (splitLines d.toStr) with
    | error e => rw [hr] at hd2; cases hd2
    | ok cards' =>
      rw [hr] at hd2
      rw [hsp] at hr
      refine sameCards_collect (same_fromLines hcls (fun t h => ⟨(ht t h).1, (ht t h).2.1⟩) ?_ hall
        hr) hcol hd2
      rw [List.forall₂_same]
      exact fun _ _ => Or.inl rfl
  refine ⟨d', hd', hsame, ?_, ?_⟩
  · unfold Deck.toStr
    exact congrArg (joinWith '\n') hsame.1.symm
  · have hnum : numbered (splitLines d.toStr) = (d.cards.map (·.line)).zipIdx 1 := by
      unfold numbered
      rw [hsp, List.filter_eq_self]
      intro p hp
      simp only [decide_eq_true_eq]
      have hm : p.1 ∈ d.cards.map (·.line) := by
        have : p.1 ∈ ((d.cards.map (·.line)).zipIdx 1).map Prod.fst := List.mem_map.2 ⟨p, hp, rfl⟩
        rwa [List.zipIdx_map_fst] at this
      exact (ht _ hm).2.1
    have e := congrArg (List.map Prod.snd) hk
    rw [List.map_map, List.map_map, hnum] at e
    refine Eq.trans e ?_
    have e2 : ((d.cards.map (·.line)).zipIdx 1).map Prod.snd = List.range' 1 d.cards.length := by
      rw [List.zipIdx_map_snd, List.length_map]
    have e3 : ((d.cards.map (·.line)).zipIdx 1).map (fun p => (p.2 : Int)) =
        (List.range' 1 d.cards.length).map (fun (i : Nat) => (i : Int)) := by
      rw [← e2, List.map_map]; rfl
    refine Eq.trans e3 ?_
    rw [List.range'_eq_map_range, List.map_map]
    apply List.map_congr_left
    intro i _
    show ((1 + i : Nat) : Int) = (i : Int) + 1
    push_cast; ring

/-- C108: a deck read from a file (with all its includes), printed to another file and read back,
has the same cards; the new file includes nothing, so one level of recursion is enough. -/
theorem C108_print (fs fs' : FileSystem) (fuel fuel' : Nat) (cls : CardClass)
    (hcls : cls = argusClass ∨ cls = punchClass) (lines lines' : Option (List Str))
    (file file' : Str) (hf : file ≠ []) (hf' : file' ≠ []) (d : Deck)
    (h : Deck.init fs fuel lines (some file) DEFAULT_WIDTH DEFAULT_FIELDS cls = .ok d)
    (hne : d.cards ≠ []) (hp : fs' file' = some (d.toStr ++ ['\n'])) :
    ∃ d', Deck.init fs' (fuel' + 1) lines' (some file') DEFAULT_WIDTH DEFAULT_FIELDS cls = .ok d' ∧
      SameCards d d' ∧ d'.lines = d.lines ∧ d'.toStr = d.toStr := by
  obtain ⟨hcol, ht, hall⟩ := file_texts hcls hf h
  have hrl : readlines (d.toStr ++ ['\n']) = (d.cards.map (·.line)).map (· ++ ['\n']) :=
    readlines_join (fun l hl => (ht l hl).1) (by simpa using hne)
  have hnd : ∀ l ∈ (d.cards.map (·.line)).map (· ++ ['\n']), l.head? ≠ some '$' := by
    intro l hl
    obtain ⟨t, h1, rfl⟩ := List.mem_map.1 hl
    have := (ht t h1).2.2
    cases t with
    | nil => decide
    | cons x t => exact this
  have hrs : Deck.readSource fs' cls DEFAULT_WIDTH DEFAULT_FIELDS (fuel' + 1) true file' =
      Deck.fromLines cls DEFAULT_WIDTH DEFAULT_FIELDS (some file') 0
        ((d.cards.map (·.line)).map (· ++ ['\n'])) := by
    rw [Deck.readSource, hp]
    simp only
    rw [hrl, readLoop_noinclude _ _ _ _ hnd]
  have hok : ∃ cards', Deck.fromLines cls DEFAULT_WIDTH DEFAULT_FIELDS (some file') 0
        ((d.cards.map (·.line)).map (· ++ ['\n'])) = .ok cards' := by
    have gen : ∀ (L : List Str) (i : Nat), ∃ cards',
        Deck.fromLines cls DEFAULT_WIDTH DEFAULT_FIELDS (some file') i L = .ok cards' := by
      intro L
      induction L with
      | nil => exact fun _ => ⟨[], rfl⟩
      | cons l L ih =>
        intro i
        rw [Deck.fromLines]
        obtain ⟨cs, hcs⟩ := ih (i + 1)
        by_cases hl : startsWith l '#' = true
        · rw [if_pos hl]; exact ⟨cs, hcs⟩
        · rw [if_neg hl]
          obtain ⟨c, hc⟩ := total_of hcls l (some file') ((i : Int) + 1)
            (fun e => hl (startsWith_iff.2 e))
          rw [hc, hcs]
          exact ⟨c :: cs, rfl⟩
    exact gen _ 0
  obtain ⟨cards', hc'⟩ := hok
  have hsc : List.Forall₂ SameCard d.cards cards' := by
    refine same_fromLines hcls (fun t h => ⟨(ht t h).1, (ht t h).2.1⟩) ?_ hall hc'
    rw [List.forall₂_map_right_iff, List.forall₂_same]
    exact fun _ _ => Or.inr rfl
  obtain ⟨bs, -, hcol'⟩ := collect_ok (lines := cards'.map (·.line)) (sameCard_body hsc)
  have hinit : Deck.init fs' (fuel' + 1) lines' (some file') DEFAULT_WIDTH DEFAULT_FIELDS cls =
      Deck.collect (cards'.map (·.line)) cards' := by
    cases file' with
    | nil => exact absurd rfl hf'
    | cons c cs =>
      unfold Deck.init
      simp only
      cases lines' <;> (rw [hrs, hc']; rfl)
  have hsame := sameCards_collect hsc hcol hcol'
  refine ⟨_, hinit.trans hcol', hsame, ?_, ?_⟩
  · show cards'.map (·.line) = d.lines
    rw [(collect_cards hcol).1, hsame.1]
  · unfold Deck.toStr
    exact congrArg (joinWith '\n') hsame.1.symm

/-- A deck with an include and comments, printed to a file. -/
def printFs : FileSystem := fun n =>
  if n = py "a" then some (py "# x\n 1\n$ b\n 2\n") else
  if n = py "b" then some (py " 3\n# y\n\n") else
  if n = py "c" then some (py " 1\n 3\n\n 2\n") else none

example : ∃ d, Deck.init printFs 2 none (some (py "a")) DEFAULT_WIDTH DEFAULT_FIELDS argusClass =
    .ok d ∧ d.cards ≠ [] ∧ printFs (py "c") = some (d.toStr ++ ['\n']) ∧
    d.cards.map (·.linenum) = [2, 1, 3, 4] :=
  ⟨_, rfl, by simp, by decide, by decide⟩

/-- C109: a file without include lines makes the same deck as the list of its lines: the same
fields, stripped fields and records, line numbers included, and cards differing in the file name
only. -/
theorem C109_file_lines (fs fs' : FileSystem) (fuel fuel' : Nat) (cls : CardClass)
    (hcls : cls = argusClass ∨ cls = punchClass) (lines : Option (List Str)) (file text : Str)
    (hf : file ≠ []) (ht : fs file = some text)
    (hi : ∀ l ∈ readlines text, l.head? ≠ some '$') :
    ∃ d d', Deck.init fs (fuel + 1) lines (some file) DEFAULT_WIDTH DEFAULT_FIELDS cls = .ok d ∧
      Deck.init fs' fuel' (some (readlines text)) none DEFAULT_WIDTH DEFAULT_FIELDS cls = .ok d' ∧
      d.fields = d'.fields ∧ d.strippedFields = d'.strippedFields ∧ d.records = d'.records ∧
      d.cards = d'.cards.map (fun c => { c with filename := some file }) ∧
      d.toStr = d'.toStr := by
  have hfile : Deck.readSource fs cls DEFAULT_WIDTH DEFAULT_FIELDS (fuel + 1) true file =
      Deck.fromLines cls DEFAULT_WIDTH DEFAULT_FIELDS (some file) 0 (readlines text) := by
    rw [Deck.readSource, ht]
    exact readLoop_noinclude _ _ _ _ hi
  obtain ⟨cs, hcs, hcs', hb⟩ : ∃ cs,
      Deck.fromLines cls DEFAULT_WIDTH DEFAULT_FIELDS none 0 (readlines text) = .ok cs ∧
      Deck.fromLines cls DEFAULT_WIDTH DEFAULT_FIELDS (some file) 0 (readlines text) =
        .ok (cs.map (fun c => { c with filename := some file })) ∧
      ∀ c ∈ cs, ∃ b, c.body = some b := by
    generalize readlines text = L
    have : ∀ i, ∃ cs, Deck.fromLines cls DEFAULT_WIDTH DEFAULT_FIELDS none i L = .ok cs ∧
        Deck.fromLines cls DEFAULT_WIDTH DEFAULT_FIELDS (some file) i L =
          .ok (cs.map (fun c => { c with filename := some file })) ∧
        ∀ c ∈ cs, ∃ b, c.body = some b := by
      induction L with
      | nil => exact fun _ => ⟨[], rfl, rfl, by simp⟩
      | cons l L ih =>
        intro i
        obtain ⟨cs, h1, h2, h3⟩ := ih (i + 1)
        rw [Deck.fromLines, Deck.fromLines]
        by_cases hl : startsWith l '#' = true
        · rw [if_pos hl, if_pos hl]
          exact ⟨cs, h1, h2, h3⟩
        · have hh : l.head? ≠ some '#' := fun e => hl (startsWith_iff.2 e)
          rw [if_neg hl, if_neg hl, h1, h2]
          have : ∃ c, cls l DEFAULT_WIDTH DEFAULT_FIELDS none ((i : Int) + 1) = .ok c ∧
              cls l DEFAULT_WIDTH DEFAULT_FIELDS (some file) ((i : Int) + 1) =
                .ok { c with filename := some file } ∧ ∃ b, c.body = some b := by
            rcases hcls with rfl | rfl
            · exact ⟨_, argus_eq l hh none _, argus_eq l hh (some file) _, _, rfl⟩
            · exact ⟨_, punch_eq l hh none _, punch_eq l hh (some file) _, _, rfl⟩
          obtain ⟨c, k1, k2, k3⟩ := this
          rw [k1, k2]
          refine ⟨c :: cs, rfl, rfl, ?_⟩
          intro x hx
          rcases List.mem_cons.1 hx with rfl | hx
          · exact k3
          · exact h3 x hx
    exact this 0
  obtain ⟨bs, hbs, hcol⟩ := collect_ok (lines := readlines text) hb
  have hbs' : (cs.map (fun c => { c with filename := some file })).mapM PunchCard.getBody =
      .ok bs := by
    rw [← hbs]
    clear hbs hcol hcs hcs' hb
    induction cs with
    | nil => rfl
    | cons c cs ih => simp only [List.map_cons, List.mapM_cons, ih]; rfl
  refine ⟨Deck.mk ((cs.map (fun c => { c with filename := some file })).map (·.line))
      (cs.map (fun c => { c with filename := some file })) (bs.map (·.fields))
      (bs.map (·.stripped)) (bs.map (·.record)), Deck.mk (readlines text) cs (bs.map (·.fields))
      (bs.map (·.stripped)) (bs.map (·.record)), ?_, ?_, rfl, rfl, rfl, rfl, ?_⟩
  · cases file with
    | nil => exact absurd rfl hf
    | cons c' cs' =>
      unfold Deck.init
      simp only
      have hcol' : Deck.collect ((cs.map (fun c => { c with filename := some (c' :: cs') })).map
          (·.line)) (cs.map (fun c => { c with filename := some (c' :: cs') })) = Except.ok (Deck.mk
          ((cs.map (fun c => { c with filename := some (c' :: cs') })).map (·.line))
          (cs.map (fun c => { c with filename := some (c' :: cs') })) (bs.map (·.fields))
          (bs.map (·.stripped)) (bs.map (·.record))) := by
        unfold Deck.collect
        rw [hbs']
        rfl
      cases lines <;> (rw [hfile, hcs']; exact hcol')
  · unfold Deck.init
    simp only
    rw [hcs]
    exact hcol
  · unfold Deck.toStr
    rw [List.map_map]
    rfl

/-- A file with comments and without includes. -/
example : ∀ l ∈ readlines (py "# x\n 1\n\n 2"), l.head? ≠ some '$' := by decide

end H800
