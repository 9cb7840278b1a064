import Verif.Lemmas.AnyLayout
import Verif.Props.Reread

/-!
Property C234: decks of any layout keep their source and can be read again.
-/

namespace H800

open Spec

/-- The texts of the cards of a file deck of any layout and what they are made from. -/
theorem file_any {fs : FileSystem} {fuel : Nat} {cls : CardClass}
    (hcls : cls = argusClass ∨ cls = punchClass) {width : Int} {cols : List Int} {lines : Option (List Str)}
    {file : Str}
    (hf : file ≠ []) {d : Deck}
    (h : Deck.init fs fuel lines (some file) width cols cls = .ok d) :
    Deck.collect (d.cards.map (·.line)) d.cards = .ok d ∧
      (∀ t ∈ d.cards.map (·.line), '\n' ∉ t ∧ t.head? ≠ some '#' ∧ t.head? ≠ some '$') ∧
      List.Forall₂ (fun t c => ∃ l fn n, (l = t ∨ l = t ++ ['\n']) ∧
        cls l width cols fn n = .ok c) (d.cards.map (·.line)) d.cards := by
  obtain ⟨out, ho, hm⟩ := C57_expansion fs fuel cls _ _ lines file hf d h
  have hcol : Deck.collect (d.cards.map (·.line)) d.cards = .ok d := by
    cases file with
    | nil => exact absurd rfl hf
    | cons c cs =>
      unfold Deck.init at h
      simp only at h
      cases hr : Deck.readSource fs cls width cols fuel true (c :: cs) with
      | error e => rw [hr] at h; cases lines <;> cases h
      | ok cards =>
        rw [hr] at h
        have : Deck.collect (cards.map (·.line)) cards = .ok d := by cases lines <;> exact h
        rw [(collect_cards this).2.1]
        exact this
  refine ⟨hcol, ?_⟩
  have hsrc := expands_src ho
  clear hcol h ho
  generalize d.cards = cards at hm ⊢
  induction out generalizing cards with
  | nil => rw [mapM_nil_ok.1 hm]; exact ⟨by simp, .nil⟩
  | cons s out ih =>
    obtain ⟨c, cs, h1, h2, rfl⟩ := mapM_cons_ok.1 hm
    obtain ⟨i1, i2⟩ := ih (fun x hx => hsrc x (List.mem_cons_of_mem _ hx)) cs h2
    obtain ⟨text, -, -, hget, hne, hnd⟩ := hsrc s List.mem_cons_self
    obtain ⟨t, t1, t2⟩ := readlines_line (List.mem_of_getElem? hget)
    obtain ⟨k1, -, -, -⟩ := keeps_any hcls hne h1
    have hfil : t.filter (· ≠ '\n') = t := by
      rw [List.filter_eq_self]
      intro c hc
      simp only [decide_eq_true_eq]
      rintro rfl; exact t1 hc
    have hct : c.line = t := by
      rw [k1]
      rcases t2 with e | e
      · rw [e, hfil]
      · rw [e, List.filter_append, hfil]; simp
    have hhd : ∀ x : Char, s.text.head? ≠ some x → t.head? ≠ some x := by
      intro x hx e
      apply hx
      rcases t2 with e' | e'
      · rw [e']; exact e
      · rw [e']
        cases t with
        | nil => cases e
        | cons y t => exact e
    refine ⟨?_, ?_⟩
    · intro u hu
      rcases List.mem_cons.1 hu with rfl | hu
      · show '\n' ∉ c.line ∧ c.line.head? ≠ some '#' ∧ c.line.head? ≠ some '$'
        rw [hct]; exact ⟨t1, hhd _ hne, hhd _ hnd⟩
      · exact i1 u hu
    · rw [List.map_cons, hct]
      exact .cons ⟨s.text, some s.file, s.num, t2, h1⟩ i2

/-- Cards made again from their own texts, with or without the newlines: every one of them is made
and agrees with the one before. -/
theorem again_any {cls : CardClass} (hcls : cls = argusClass ∨ cls = punchClass) {width : Int}
    {cols : List Int} (hw : 0 ≤ width) (hco : ∀ x ∈ cols, 1 ≤ x) {ts ls : List Str}
    {cards : List PunchCard} {fn : Option Str} {i : Nat} (ht : ∀ t ∈ ts, t.head? ≠ some '#')
    (hls : List.Forall₂ (fun t l => l = t ∨ l = t ++ ['\n']) ts ls)
    (hc : List.Forall₂ (fun t c => ∃ l fn n, (l = t ∨ l = t ++ ['\n']) ∧
      cls l width cols fn n = .ok c) ts cards) :
    ∃ cards', Deck.fromLines cls width cols fn i ls = .ok cards' ∧
      List.Forall₂ SameCard cards cards' ∧
      cards'.map (·.linenum) = (List.range cards.length).map (fun (k : Nat) => (i : Int) + k + 1) := by
  induction hls generalizing cards i with
  | nil => cases hc; exact ⟨[], rfl, .nil, rfl⟩
  | @cons t l ts ls hl _ ih =>
    cases hc with
    | @cons _ c _ cs h1 h2 =>
      obtain ⟨l0, fn0, n0, e0, hmk⟩ := h1
      have hh := ht t List.mem_cons_self
      obtain ⟨cs', k1, k2, k3⟩ := ih (i := i + 1) (fun x hx => ht x (List.mem_cons_of_mem _ hx)) h2
      have hlh : l.head? ≠ some '#' := by
        rcases hl with rfl | rfl
        · exact hh
        · cases t with
          | nil => decide
          | cons x t => exact hh
      rcases alike_newline hcls hco hw hh e0 hl fn0 fn n0 ((i : Int) + 1) with
        ⟨e, g, -⟩ | ⟨x, x', g, g', hs⟩
      · rw [hmk] at g; cases g
      · rw [hmk] at g
        cases g
        refine ⟨x' :: cs', ?_, .cons hs k2, ?_⟩
        · rw [Deck.fromLines, if_neg (fun e => hlh (startsWith_iff.1 e)), g', k1]
          rfl
        · rw [List.map_cons, k3, (keeps_any hcls hlh g').2.2.1, List.length_cons,
            List.range_succ_eq_map, List.map_cons, List.map_map]
          refine congrArg₂ List.cons (by simp) ?_
          apply List.map_congr_left
          intro k _
          simp only [Function.comp]
          push_cast; ring

/-- C234, first part: whatever the width, the columns and the class, the cards of a deck read from a
file are those of the lines it expands to: each names its file and its line there and holds its text
without the newline; the deck's lines are these texts, and its own text splits into them. -/
theorem C234_source_partial (fs : FileSystem) (fuel : Nat) (cls : CardClass)
    (hcls : cls = argusClass ∨ cls = punchClass) (width : Int) (cols : List Int)
    (lines : Option (List Str)) (file : Str) (hf : file ≠ []) (d : Deck)
    (h : Deck.init fs fuel lines (some file) width cols cls = .ok d) :
    ∃ out, Expands fs file out ∧
      d.cards.map (fun c => (c.filename, c.linenum, c.line)) =
        out.map (fun s => (some s.file, (s.num : Int), s.text.filter (· ≠ '\n'))) ∧
      d.lines = out.map (fun s => s.text.filter (· ≠ '\n')) ∧
      (out ≠ [] → splitLines d.toStr = d.lines) ∧
      ∀ c ∈ d.cards, ∃ (name text : Str) (k : Nat) (l : Str), c.filename = some name ∧
        fs name = some text ∧ c.linenum = (k : Int) + 1 ∧ (readlines text)[k]? = some l ∧
        l.head? ≠ some '#' ∧ l.head? ≠ some '$' ∧ c.line = l.filter (· ≠ '\n') := by
  obtain ⟨out, h1, h2⟩ := C57_expansion fs fuel cls width cols lines file hf d h
  obtain ⟨hcol, ht, -⟩ := file_any hcls hf h
  have hsrc := expands_src h1
  have hk : d.cards.map (fun c => (c.filename, c.linenum, c.line)) =
      out.map (fun s => (some s.file, (s.num : Int), s.text.filter (· ≠ '\n'))) := by
    clear hcol ht h h1
    generalize d.cards = cards at h2
    induction out generalizing cards with
    | nil => rw [mapM_nil_ok.1 h2]; rfl
    | cons s out ih =>
      obtain ⟨c, cs, g1, g2, rfl⟩ := mapM_cons_ok.1 h2
      obtain ⟨_, -, -, -, t4, -⟩ := hsrc s List.mem_cons_self
      obtain ⟨k1, k2, k3, -⟩ := keeps_any hcls t4 g1
      rw [List.map_cons, List.map_cons, ih (fun x hx => hsrc x (List.mem_cons_of_mem _ hx)) cs g2,
        k1, k2, k3]
  have hdl : d.lines = d.cards.map (·.line) := (collect_cards hcol).1
  have e := congrArg (List.map fun p : Option Str × Int × Str => p.2.2) hk
  rw [List.map_map, List.map_map] at e
  refine ⟨out, h1, hk, hdl.trans e, fun hne => ?_, ?_⟩
  · rw [hdl]
    refine splitLines_join (fun l hl => (ht l hl).1) ?_
    intro he
    apply hne
    have e3 : d.cards.map PunchCard.toStr = out.map (fun s => s.text.filter (· ≠ '\n')) := e
    rw [he] at e3
    exact List.map_eq_nil_iff.1 e3.symm
  · intro c hc
    obtain ⟨s, hs, hmk⟩ := mapM_ok_mem h2 hc
    obtain ⟨text, t1, t2, t3, t4, t5⟩ := hsrc s hs
    obtain ⟨k1, k2, k3, -⟩ := keeps_any hcls t4 hmk
    exact ⟨s.file, text, s.num - 1, s.text, k2, t1, by rw [k3]; omega, t3, t4, t5, k1⟩

/-- C234, second part: whatever the width, the columns and the class, the cards of a deck made from a
list of lines are those of its lines that are no comments, numbered by their places in the list. -/
theorem C234_list_partial (fs : FileSystem) (fuel : Nat) (cls : CardClass)
    (hcls : cls = argusClass ∨ cls = punchClass) (width : Int) (cols : List Int) (lines : List Str)
    (d : Deck) (h : Deck.init fs fuel (some lines) none width cols cls = .ok d) :
    d.lines = lines ∧
      d.cards.map (fun c => (c.filename, c.linenum, c.line)) =
        (numbered lines).map (fun p => (none, (p.2 : Int), p.1.filter (· ≠ '\n'))) ∧
      (d.cards ≠ [] → splitLines d.toStr =
        (numbered lines).map (fun p => p.1.filter (· ≠ '\n'))) := by
  have hfl := fromLines_eq (cls := cls) (width := width) (fields := cols) none 0 lines
  change _ = (numbered lines).mapM _ at hfl
  have hnum : ∀ p ∈ numbered lines, p.1.head? ≠ some '#' := by
    intro p hp
    have := List.of_mem_filter hp
    simpa using this
  unfold Deck.init at h
  simp only at h
  cases hr : Deck.fromLines cls width cols none 0 lines with
  | error e => rw [hr] at h; cases h
  | ok cards =>
    rw [hr] at h hfl
    have hcol : Deck.collect lines cards = .ok d := h
    have hk : cards.map (fun c => (c.filename, c.linenum, c.line)) =
        (numbered lines).map (fun p => (none, (p.2 : Int), p.1.filter (· ≠ '\n'))) := by
      clear hcol h hr
      generalize numbered lines = N at *
      induction N generalizing cards with
      | nil => rw [mapM_nil_ok.1 hfl.symm]; rfl
      | cons p N ih =>
        obtain ⟨c, cs, g1, g2, rfl⟩ := mapM_cons_ok.1 hfl.symm
        obtain ⟨k1, k2, k3, -⟩ := keeps_any hcls (hnum p List.mem_cons_self) g1
        rw [List.map_cons, List.map_cons, ih cs (fun x hx => hnum x (List.mem_cons_of_mem _ hx))
          g2.symm, k1, k2, k3]
    obtain ⟨e1, e2, -⟩ := collect_cards hcol
    refine ⟨e1, by rw [e2]; exact hk, fun hne => ?_⟩
    have e := congrArg (List.map fun p : Option Str × Int × Str => p.2.2) hk
    rw [List.map_map, List.map_map] at e
    have e3 : cards.map (·.line) = (numbered lines).map (fun p => p.1.filter (· ≠ '\n')) := e
    rw [← e3, ← e2]
    refine splitLines_join ?_ (by simpa using hne)
    intro l hl
    have hl' : l ∈ d.cards.map (·.line) := hl
    rw [e2, e3] at hl'
    obtain ⟨p, -, rfl⟩ := List.mem_map.1 hl'
    intro hm
    have := List.of_mem_filter hm
    simp at this

/-- C234, third part: with columns from 1 on and a width that is not negative, the text of a deck
read from a file, split into lines, makes a deck with the same cards, numbered from 1. -/
theorem C234_again_partial (fs fs' : FileSystem) (fuel fuel' : Nat) (cls : CardClass)
    (hcls : cls = argusClass ∨ cls = punchClass) (width : Int) (cols : List Int) (hw : 0 ≤ width)
    (hco : ∀ x ∈ cols, 1 ≤ x) (lines : Option (List Str)) (file : Str) (hf : file ≠ []) (d : Deck)
    (h : Deck.init fs fuel lines (some file) width cols cls = .ok d) (hne : d.cards ≠ []) :
    ∃ d', Deck.init fs' fuel' (some (splitLines d.toStr)) none width cols cls = .ok d' ∧
      SameCards d d' ∧ d'.toStr = d.toStr ∧
      d'.cards.map (·.linenum) = (List.range d.cards.length).map fun (i : Nat) => (i : Int) + 1 := by
  obtain ⟨hcol, ht, hall⟩ := file_any hcls hf h
  have hsp : splitLines d.toStr = d.cards.map (·.line) :=
    splitLines_join (fun l hl => (ht l hl).1) (by simpa using hne)
  obtain ⟨cards', k1, k2, k3⟩ := again_any hcls hw hco (ls := d.cards.map (·.line)) (fn := none)
    (i := 0) (fun t h => (ht t h).2.1) (by rw [List.forall₂_same]; exact fun _ _ => Or.inl rfl) hall
  obtain ⟨bs, -, hcol'⟩ := collect_ok (lines := splitLines d.toStr) (sameCard_body k2)
  have hinit : Deck.init fs' fuel' (some (splitLines d.toStr)) none width cols cls =
      Deck.collect (splitLines d.toStr) cards' := by
    unfold Deck.init
    simp only
    rw [hsp, k1]
    rfl
  have hsame := sameCards_collect k2 hcol hcol'
  refine ⟨_, hinit.trans hcol', hsame, ?_, ?_⟩
  · unfold Deck.toStr
    exact congrArg (joinWith '\n') hsame.1.symm
  · refine k3.trans ?_
    apply List.map_congr_left
    intro k _
    simp

/-- C234, fourth part: the same for a deck printed to a file and read back from it. -/
theorem C234_print_partial (fs fs' : FileSystem) (fuel fuel' : Nat) (cls : CardClass)
    (hcls : cls = argusClass ∨ cls = punchClass) (width : Int) (cols : List Int) (hw : 0 ≤ width)
    (hco : ∀ x ∈ cols, 1 ≤ x) (lines lines' : Option (List Str)) (file file' : Str) (hf : file ≠ [])
    (hf' : file' ≠ []) (d : Deck) (h : Deck.init fs fuel lines (some file) width cols cls = .ok d)
    (hne : d.cards ≠ []) (hp : fs' file' = some (d.toStr ++ ['\n'])) :
    ∃ d', Deck.init fs' (fuel' + 1) lines' (some file') width cols cls = .ok d' ∧
      SameCards d d' ∧ d'.lines = d.lines ∧ d'.toStr = d.toStr := by
  obtain ⟨hcol, ht, hall⟩ := file_any hcls hf h
  have hrl : readlines (d.toStr ++ ['\n']) = (d.cards.map (·.line)).map (· ++ ['\n']) :=
    readlines_join (fun l hl => (ht l hl).1) (by simpa using hne)
  have hnd : ∀ l ∈ (d.cards.map (·.line)).map (· ++ ['\n']), l.head? ≠ some '$' := by
    intro l hl
    obtain ⟨t, h1, rfl⟩ := List.mem_map.1 hl
    have := (ht t h1).2.2
    cases t with
    | nil => decide
    | cons x t => exact this
  have hrs : Deck.readSource fs' cls width cols (fuel' + 1) true file' =
      Deck.fromLines cls width cols (some file') 0 ((d.cards.map (·.line)).map (· ++ ['\n'])) := by
    rw [Deck.readSource, hp]
    simp only
    rw [hrl, readLoop_noinclude _ _ _ _ hnd]
  obtain ⟨cards', hc', hsc, -⟩ := again_any hcls hw hco
    (ls := (d.cards.map (·.line)).map (· ++ ['\n'])) (fn := some file') (i := 0)
    (fun t h => (ht t h).2.1)
    (by rw [List.forall₂_map_right_iff, List.forall₂_same]; exact fun _ _ => Or.inr rfl) hall
  obtain ⟨bs, -, hcol'⟩ := collect_ok (lines := cards'.map (·.line)) (sameCard_body hsc)
  have hinit : Deck.init fs' (fuel' + 1) lines' (some file') width cols cls =
      Deck.collect (cards'.map (·.line)) cards' := by
    cases file' with
    | nil => exact absurd rfl hf'
    | cons c cs =>
      unfold Deck.init
      simp only
      cases lines' <;> (rw [hrs, hc']; rfl)
  have hsame := sameCards_collect hsc hcol hcol'
  refine ⟨_, hinit.trans hcol', hsame, ?_, ?_⟩
  · show cards'.map (·.line) = d.lines
    rw [(collect_cards hcol).1, hsame.1]
  · unfold Deck.toStr
    exact congrArg (joinWith '\n') hsame.1.symm

/-- C234, fifth part: whatever the width, the columns and the class, a file without include lines and
the list of its lines make the same deck but for the name of the file and the deck's own list of
lines, or fail with the same exception. -/
theorem C234_file_partial (fs fs' : FileSystem) (fuel fuel' : Nat) (cls : CardClass)
    (hcls : cls = argusClass ∨ cls = punchClass) (width : Int) (cols : List Int)
    (lines : Option (List Str)) (file text : Str) (hf : file ≠ []) (ht : fs file = some text)
    (hi : ∀ l ∈ readlines text, l.head? ≠ some '$') :
    Deck.init fs (fuel + 1) lines (some file) width cols cls =
      (Deck.init fs' fuel' (some (readlines text)) none width cols cls).map fun d =>
        { d with
          lines := d.cards.map (·.line)
          cards := d.cards.map fun c => { c with filename := some file } } := by
  have hfile : Deck.readSource fs cls width cols (fuel + 1) true file =
      Deck.fromLines cls width cols (some file) 0 (readlines text) := by
    rw [Deck.readSource, ht]
    exact readLoop_noinclude _ _ _ _ hi
  have hren : ∀ (L : List Str) (i : Nat), Deck.fromLines cls width cols (some file) i L =
      (Deck.fromLines cls width cols none i L).map
        (List.map fun c => { c with filename := some file }) := by
    intro L
    induction L with
    | nil => exact fun _ => rfl
    | cons l L ih =>
      intro i
      rw [Deck.fromLines, Deck.fromLines]
      by_cases hl : startsWith l '#' = true
      · rw [if_pos hl, if_pos hl]; exact ih (i + 1)
      · rw [if_neg hl, if_neg hl, ih (i + 1), rename_any hcls l width cols (some file) none]
        cases cls l width cols none ((i : Int) + 1) with
        | error e => rfl
        | ok c => cases Deck.fromLines cls width cols none (i + 1) L <;> rfl
  have hbody : ∀ cs : List PunchCard,
      (cs.map (fun c => { c with filename := some file })).mapM PunchCard.getBody =
        cs.mapM PunchCard.getBody := by
    intro cs
    induction cs with
    | nil => rfl
    | cons c cs ih => simp only [List.map_cons, List.mapM_cons, ih]; rfl
  have hinit : Deck.init fs (fuel + 1) lines (some file) width cols cls =
      (Deck.fromLines cls width cols (some file) 0 (readlines text) >>= fun cs =>
        Deck.collect (cs.map (·.line)) cs) := by
    cases file with
    | nil => exact absurd rfl hf
    | cons c cs =>
      unfold Deck.init
      simp only
      cases lines <;> (rw [hfile]; try rfl)
  have hinit' : Deck.init fs' fuel' (some (readlines text)) none width cols cls =
      (Deck.fromLines cls width cols none 0 (readlines text) >>= fun cs =>
        Deck.collect (readlines text) cs) := by
    unfold Deck.init
    rfl
  rw [hinit, hinit', hren]
  cases Deck.fromLines cls width cols none 0 (readlines text) with
  | error e => rfl
  | ok cs =>
    simp only [Except.map, py_bind_ok]
    unfold Deck.collect
    rw [hbody]
    cases cs.mapM PunchCard.getBody with
    | error e => rfl
    | ok bs =>
      simp only [py_bind_ok, List.map_map]
      rfl

/-- C234, sixth part: whatever the layout, a file that expands to lines each of which makes a card
makes a deck of these cards, at every depth that is enough. -/
theorem C234_complete_partial (fs : FileSystem) (cls : CardClass)
    (hcls : cls = argusClass ∨ cls = punchClass) (width : Int) (cols : List Int)
    (lines : Option (List Str)) (file : Str) (hf : file ≠ []) (out : List Src)
    (h : Expands fs file out)
    (hmk : ∀ s ∈ out, ∃ c, cls s.text width cols none 0 = .ok c) :
    ∃ n d, (∀ m, n ≤ m → Deck.init fs m lines (some file) width cols cls = .ok d) ∧
      out.mapM (fun s => cls s.text width cols (some s.file) s.num) = .ok d.cards := by
  have hsrc := expands_src h
  have hne : ∀ s ∈ out, s.text.head? ≠ some '#' := by
    intro s hs
    obtain ⟨_, _, _, _, h1, _⟩ := hsrc s hs
    exact h1
  obtain ⟨cards, hcards, hbody⟩ : ∃ cards,
      out.mapM (fun s : Src => cls s.text width cols (some s.file) s.num) = .ok cards ∧
      ∀ c ∈ cards, ∃ b, c.body = some b := by
    clear hsrc h
    induction out with
    | nil => exact ⟨[], rfl, by simp⟩
    | cons s out ih =>
      obtain ⟨cs, h1, h2⟩ := ih (fun x hx => hmk x (List.mem_cons_of_mem _ hx))
        (fun x hx => hne x (List.mem_cons_of_mem _ hx))
      obtain ⟨c0, hc0⟩ := hmk s List.mem_cons_self
      have hh := hne s List.mem_cons_self
      rcases alike_any (width := width) (cols := cols) hcls hh hh rfl rfl none (some s.file) 0
        (s.num : Int) with ⟨e, g, -⟩ | ⟨x, x', -, g', -⟩
      · rw [hc0] at g; cases g
      · refine ⟨x' :: cs, mapM_cons_ok.2 ⟨x', cs, g', h1, rfl⟩, ?_⟩
        intro y hy
        rcases List.mem_cons.1 hy with rfl | hy
        · exact (keeps_any hcls hh g').2.2.2
        · exact h2 y hy
  obtain ⟨n, hn⟩ := readSource_complete (cls := cls) (width := width) (fields := cols) h hcards
  obtain ⟨bs, -, hcol⟩ := collect_ok (lines := cards.map (·.line)) hbody
  refine ⟨n, ⟨cards.map (·.line), cards, bs.map (·.fields), bs.map (·.stripped),
    bs.map (·.record)⟩, fun m hm => ?_, hcards⟩
  cases file with
  | nil => exact absurd rfl hf
  | cons c cs =>
    unfold Deck.init
    simp only
    cases lines <;> (rw [hn m hm]; exact hcol)

/-- C234 as one would state it: in every layout the text of a deck read from a file makes a deck
with the same cards. -/
def C234_statement : Prop :=
  ∀ (fs fs' : FileSystem) (fuel fuel' : Nat) (cls : CardClass), (cls = argusClass ∨ cls = punchClass) →
  ∀ (width : Int) (cols : List Int) (file : Str), file ≠ [] → ∀ d : Deck,
    Deck.init fs fuel none (some file) width cols cls = .ok d → d.cards ≠ [] →
    ∃ d', Deck.init fs' fuel' (some (splitLines d.toStr)) none width cols cls = .ok d' ∧ SameCards d d'

/-- A file of one line. -/
def zeroFs : FileSystem := fun n => if n = py "a" then some (py "A\n") else none

/-- C234 is false: with a column 0 the field starts at the last character of the line, which in a
file is its newline. -/
theorem C234_refuted : ¬ C234_statement := by
  intro h
  obtain ⟨d', h1, h2⟩ := h zeroFs zeroFs 1 1 punchClass (Or.inr rfl) 5 [0] (py "a") (by decide) _ rfl
    (by decide)
  cases h1
  have := h2.2.1
  revert this
  decide

/-- The same with a negative width: the one field ends before the last character, which is the
newline in a file. -/
example : (PunchCard.init (py "AB\n") (-1) [1] DEFAULT_FIELDNAMES none 1).map (·.body.map (·.stripped)) ≠
    (PunchCard.init (py "AB") (-1) [1] DEFAULT_FIELDNAMES none 1).map (·.body.map (·.stripped)) := by
  decide

/-- A file with a comment and an include read as plain cards of two fields. -/
example : ∃ d, Deck.init printFs 2 none (some (py "a")) 5 [2, 4] punchClass = .ok d ∧
    d.cards ≠ [] ∧ d.cards.map (·.linenum) = [2, 1, 3, 4] ∧
    d.strippedFields = [[some (py "1"), none], [some (py "3"), none], [none, none],
      [some (py "2"), none]] :=
  ⟨_, rfl, by simp, by decide, by decide⟩

end H800
